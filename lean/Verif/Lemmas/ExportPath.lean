import Verif.Model.ExportPath
import Mathlib.Data.Nat.Digits.Lemmas
import Mathlib.Data.List.Nodup
import Mathlib.Data.List.TakeWhile

/-!
# Names of exported files
-/

namespace Bathy

theorem dir_file (p : Path) : dirPart p ++ filePart p = p := by
  unfold dirPart filePart
  rw [← List.reverse_append, List.takeWhile_append_dropWhile, List.reverse_reverse]

theorem filePart_no (p : Path) : '/' ∉ filePart p := by
  unfold filePart
  rw [List.mem_reverse]
  intro h
  have := List.mem_takeWhile_imp h
  simp at this

theorem dirPart_last (p : Path) : dirPart p = [] ∨ (dirPart p).getLast? = some '/' := by
  unfold dirPart
  rcases h : p.reverse.dropWhile (fun c => c != '/') with _ | ⟨c, l⟩
  · left; rfl
  · right
    rw [List.getLast?_reverse]
    have : ¬ (fun c : Char => c != '/') c = true := by
      have := List.head_dropWhile_not (fun c : Char => c != '/') (l := p.reverse) (by rw [h]; simp)
      simp only [h, List.head_cons] at this
      simpa using this
    simpa using this

/-- a path that is a folder (with its slash, or nothing) followed by a name -/
theorem parts_of {d f : Path} (hd : d = [] ∨ d.getLast? = some '/') (hf : '/' ∉ f) : dirPart (d ++ f) = d ∧ filePart (d ++ f) = f := by
  have htake : ∀ (l : List Char) (m : List Char), (∀ c ∈ l, (c != '/') = true) → (m = [] ∨ m.head? = some '/') →
      (l ++ m).takeWhile (fun c => c != '/') = l ∧ (l ++ m).dropWhile (fun c => c != '/') = m := by
    intro l m hl hm
    rw [List.takeWhile_append_of_pos hl, List.dropWhile_append_of_pos hl]
    rcases m with _ | ⟨c, m⟩
    · simp
    · rcases hm with hm | hm
      · cases hm
      · simp only [List.head?_cons, Option.some.injEq] at hm
        subst hm
        simp
  have h := htake f.reverse d.reverse (by
    intro c hc
    rw [List.mem_reverse] at hc
    simp only [bne_iff_ne, ne_eq]
    rintro rfl
    exact hf hc) (by
    rcases hd with rfl | hd
    · left; rfl
    · right; rw [List.head?_reverse]; exact hd)
  unfold dirPart filePart
  rw [List.reverse_append, h.1, h.2]
  simp

theorem parts_append {p x : Path} (hx : '/' ∉ x) : dirPart (p ++ x) = dirPart p ∧ filePart (p ++ x) = filePart p ++ x := by
  have := parts_of (d := dirPart p) (f := filePart p ++ x) (dirPart_last p) (by simp [filePart_no, hx])
  rw [← List.append_assoc, dir_file] at this
  exact this

/-- a path is its stem and its extension, and the extension has no slash and begins with a dot -/
theorem splitExt_append (p : Path) : (splitExt p).1 ++ (splitExt p).2 = p ∧ ((splitExt p).2 = [] ∨ ∃ e, (splitExt p).2 = '.' :: e ∧ '.' ∉ e ∧ '/' ∉ e) := by
  unfold splitExt
  simp only
  split
  · rename_i h
    have hdot : '.' ∈ filePart p := by
      simp only [Bool.and_eq_true, List.contains_eq_mem, decide_eq_true_eq] at h
      exact h.1
    have hcut : (filePart p).reverse = (filePart p).reverse.takeWhile (fun c => c != '.') ++ '.' :: ((filePart p).reverse.dropWhile (fun c => c != '.')).drop 1 := by
      conv_lhs => rw [← List.takeWhile_append_dropWhile (p := fun c => c != '.') (l := (filePart p).reverse)]
      congr 1
      rcases hd : (filePart p).reverse.dropWhile (fun c => c != '.') with _ | ⟨c, l⟩
      · exfalso
        rw [List.dropWhile_eq_nil_iff] at hd
        have := hd '.' (by rw [List.mem_reverse]; exact hdot)
        simp at this
      · have := List.head_dropWhile_not (fun c : Char => c != '.') (l := (filePart p).reverse) (by rw [hd]; simp)
        simp only [hd, List.head_cons] at this
        have hc : c = '.' := by simpa using this
        subst hc
        simp
    refine ⟨?_, Or.inr ⟨_, rfl, ?_, ?_⟩⟩
    · have := congrArg List.reverse hcut
      rw [List.reverse_reverse, List.reverse_append, List.reverse_cons] at this
      rw [List.append_assoc]
      conv_rhs => rw [← dir_file p, this]
      simp
    · rw [List.mem_reverse]
      intro h
      have := List.mem_takeWhile_imp h
      simp at this
    · rw [List.mem_reverse]
      intro h
      exact filePart_no p (by rw [← List.mem_reverse]; exact List.takeWhile_subset _ h)
  · exact ⟨by simp, Or.inl rfl⟩

theorem splitExt_dir (p : Path) : dirPart (splitExt p).1 = dirPart p := by
  obtain ⟨h1, h2⟩ := splitExt_append p
  have : '/' ∉ (splitExt p).2 := by
    rcases h2 with h | ⟨e, h, -, h'⟩
    · rw [h]; simp
    · rw [h]; simp [h']
  have := (parts_append (p := (splitExt p).1) this).1
  rw [h1] at this
  exact this.symm

/-- a name made of the stem, an underscore and more is not the path itself -/
theorem not_path (p x : Path) : (splitExt p).1 ++ '_' :: x ≠ p := by
  obtain ⟨h1, h2⟩ := splitExt_append p
  intro h
  have : '_' :: x = (splitExt p).2 := by
    apply List.append_cancel_left (as := (splitExt p).1)
    rw [h, h1]
  rcases h2 with h2 | ⟨e, h2, -⟩
  · rw [h2] at this; cases this
  · rw [h2] at this
    have := (List.cons.inj this).1
    revert this; decide

/-! ### numbers -/

theorem digitChar_inj {a b : Nat} (ha : a < 10) (hb : b < 10) (h : Nat.digitChar a = Nat.digitChar b) : a = b := by
  have : ∀ a < 10, ∀ b < 10, Nat.digitChar a = Nat.digitChar b → a = b := by decide +kernel
  exact this a ha b hb h

theorem digitChar_digit {a : Nat} (ha : a < 10) : (Nat.digitChar a).isDigit = true := by
  have : ∀ a < 10, (Nat.digitChar a).isDigit = true := by decide +kernel
  exact this a ha

theorem map_digit_inj {l m : List Nat} (hl : ∀ d ∈ l, d < 10) (hm : ∀ d ∈ m, d < 10) (h : l.map Nat.digitChar = m.map Nat.digitChar) : l = m := by
  induction l generalizing m with
  | nil =>
    cases m with
    | nil => rfl
    | cons _ _ => cases h
  | cons a l ih =>
    cases m with
    | nil => cases h
    | cons b m =>
      simp only [List.map_cons, List.cons.injEq] at h
      rw [digitChar_inj (hl a (by simp)) (hm b (by simp)) h.1, ih (fun d hd => hl d (by simp [hd])) (fun d hd => hm d (by simp [hd])) h.2]

theorem decimal_digits (k : Nat) : ∀ c ∈ decimal k, c.isDigit = true := by
  unfold decimal
  split
  · decide
  · intro c hc
    obtain ⟨d, hd, rfl⟩ := List.mem_map.1 hc
    rw [List.mem_reverse] at hd
    exact digitChar_digit (Nat.digits_lt_base (by norm_num) hd)

theorem decimal_inj {k n : Nat} (h : decimal k = decimal n) : k = n := by
  have h0 : ∀ n, n ≠ 0 → decimal n ≠ decimal 0 := by
    intro n hn h
    unfold decimal at h
    rw [if_neg hn, if_pos rfl] at h
    have hlen := congrArg List.length h
    simp only [List.length_map, List.length_reverse, List.length_cons, List.length_nil, zero_add] at hlen
    obtain ⟨d, hd⟩ := List.length_eq_one_iff.1 hlen
    rw [hd] at h
    have hd10 : d < 10 := Nat.digits_lt_base (b := 10) (m := n) (by norm_num) (by rw [hd]; simp)
    have : d = 0 := digitChar_inj hd10 (by norm_num) (List.cons.inj h).1
    subst this
    have := Nat.ofDigits_digits 10 n
    rw [hd] at this
    simp at this
    exact hn this.symm
  by_cases hk : k = 0
  · subst hk
    by_contra hn
    exact h0 n (Ne.symm hn) h.symm
  · by_cases hn : n = 0
    · subst hn; exact absurd h (h0 k hk)
    · unfold decimal at h
      rw [if_neg hk, if_neg hn] at h
      have := map_digit_inj (fun d hd => Nat.digits_lt_base (b := 10) (m := k) (by norm_num) (by simpa using hd))
        (fun d hd => Nat.digits_lt_base (b := 10) (m := n) (by norm_num) (by simpa using hd)) h
      have h' : Nat.digits 10 k = Nat.digits 10 n := List.reverse_injective this
      exact Nat.digits_inj_iff.1 h'

theorem cut_unique {x : Char} {a b c d : List Char} (ha : x ∉ a) (hb : x ∉ b) (h : a ++ x :: c = b ++ x :: d) : a = b ∧ c = d := by
  induction a generalizing b with
  | nil =>
    cases b with
    | nil => exact ⟨rfl, (List.cons.inj h).2⟩
    | cons y b => exact absurd (List.cons.inj h).1 (fun e => hb (by rw [e]; simp))
  | cons z a ih =>
    cases b with
    | nil => exact absurd (List.cons.inj h).1 (fun e => ha (by rw [← e]; simp))
    | cons y b =>
      obtain ⟨h1, h2⟩ := List.cons.inj h
      obtain ⟨h3, h4⟩ := ih (fun h => ha (by simp [h])) (fun h => hb (by simp [h])) h2
      exact ⟨by rw [h1, h3], h4⟩

theorem csvName_inj {base a b : Path} (h : csvName base a = csvName base b) : a = b := by
  unfold csvName at h
  rw [List.append_assoc, List.append_assoc] at h
  have h := List.append_cancel_left h
  simp only [List.cons_append, List.cons.injEq, true_and] at h
  exact List.append_cancel_right h

theorem rasterName_inj {kind : RasterKind} {base a b : Path} {k n : Nat} (ha : '_' ∉ a) (hb : '_' ∉ b) (h : rasterName kind base a k = rasterName kind base b n) : a = b ∧ k = n := by
  unfold rasterName at h
  have h := List.append_cancel_right h
  rw [List.append_assoc, List.append_assoc] at h
  have h := List.append_cancel_left h
  simp only [List.cons_append, List.cons.injEq, true_and] at h
  obtain ⟨h1, h2⟩ := cut_unique ha hb h
  exact ⟨h1, decimal_inj h2⟩

/-! ### the files of one export -/

theorem writeRasters_keys (epsg : Option Int) (res : ℚ) (names : List String) (k : Nat) (cs : List Chunk) :
    (writeRasters epsg res names k cs).1.Pairwise (fun f f' => f.number < f'.number) ∧ ∀ f ∈ (writeRasters epsg res names k cs).1, f.res = res ∧ k ≤ f.number := by
  induction cs generalizing k with
  | nil => exact ⟨List.Pairwise.nil, by simp [writeRasters]⟩
  | cons c cs ih =>
    unfold writeRasters
    split
    · exact ⟨List.Pairwise.nil, by simp⟩
    · rename_i f hf
      have hkey : f.res = res ∧ f.number = k := by
        unfold rasterCreate at hf
        split at hf
        · cases hf
        split at hf
        · cases hf
        · split at hf
          · cases hf
          · split at hf
            · cases hf; exact ⟨rfl, rfl⟩
            · split at hf
              · cases hf
              · cases hf; exact ⟨rfl, rfl⟩
      obtain ⟨h1, h2⟩ := ih (k + 1)
      refine ⟨List.pairwise_cons.2 ⟨fun f' hf' => ?_, h1⟩, ?_⟩
      · have := (h2 f' hf').2; omega
      · intro f' hf'
        rcases List.mem_cons.1 hf' with rfl | hf'
        · exact ⟨hkey.1, by omega⟩
        · exact ⟨(h2 f' hf').1, by have := (h2 f' hf').2; omega⟩

/-- resolution and number of the file -/
def RasterFile.key (f : RasterFile) : ℚ × Nat := (f.res, f.number)

theorem writeRasters_nodup (epsg : Option Int) (res : ℚ) (names : List String) (k : Nat) (cs : List Chunk) : ((writeRasters epsg res names k cs).1.map RasterFile.key).Nodup := by
  unfold List.Nodup
  rw [List.pairwise_map]
  refine (writeRasters_keys epsg res names k cs).1.imp ?_
  intro f f' h e
  have := (Prod.mk.inj e).2
  omega

variable {τ : Type} [LayerLike τ]

theorem rasterLoop_keys (env : Env) (epsg : Option Int) (layers : List Layer) (names : List String) (zUp : Bool) (override : Option ℚ) (rs : List ℚ) (hrs : rs.Nodup) (g : Grid τ) (fs : List RasterFile)
    (hfs : (fs.map RasterFile.key).Nodup) (hdis : ∀ f ∈ fs, f.res ∉ rs) :
    ((Grid.rasterLoop env epsg layers names zUp override rs g fs).2.1.map RasterFile.key).Nodup := by
  induction rs generalizing g fs with
  | nil => exact hfs
  | cons r rs ih =>
    unfold Grid.rasterLoop
    simp only
    have hw := writeRasters_keys epsg r names 1 (g.getChunks env r layers (some 1000000) zUp override true).st.2
    have hn := writeRasters_nodup epsg r names 1 (g.getChunks env r layers (some 1000000) zUp override true).st.2
    have happ : ((fs ++ (writeRasters epsg r names 1 (g.getChunks env r layers (some 1000000) zUp override true).st.2).1).map RasterFile.key).Nodup := by
      rw [List.map_append, List.nodup_append]
      refine ⟨hfs, hn, ?_⟩
      intro a ha b hb e
      subst e
      obtain ⟨f, hf, rfl⟩ := List.mem_map.1 ha
      obtain ⟨f', hf', e⟩ := List.mem_map.1 hb
      have h1 := (Prod.mk.inj e).1
      have h2 := (hw.2 f' hf').1
      exact hdis f hf (by rw [← h1, h2]; simp)
    split
    · exact happ
    · split
      · exact happ
      · refine ih (List.nodup_cons.1 hrs).2 _ _ happ ?_
        intro f hf
        rcases List.mem_append.1 hf with hf | hf
        · exact fun h => hdis f hf (by simp [h])
        · rw [(hw.2 f hf).1]; exact (List.nodup_cons.1 hrs).1

theorem exportRaster_keys [LayerNames τ] (env : Env) (g : Grid τ) (kind : RasterKind) (zUp : Bool) (res override : Option ℚ) (hg : g.resolutions.Nodup) :
    ((g.exportRaster env kind zUp res override).2.1.map RasterFile.key).Nodup := by
  unfold Grid.exportRaster
  simp only
  split
  · exact List.nodup_nil
  · refine rasterLoop_keys _ _ _ _ _ _ _ ?_ _ _ (by simp) (by simp)
    cases res with
    | none => exact hg
    | some r => simp

theorem csvLoop_keys [NamesLike τ] (env : Env) (zUp : Bool) (rs : List ℚ) (hrs : rs.Nodup) (g : Grid τ) (fs : List (ℚ × CsvFile)) (hfs : (fs.map Prod.fst).Nodup) (hdis : ∀ f ∈ fs, f.1 ∉ rs) :
    ((Grid.csvLoop env zUp rs g fs).2.1.map Prod.fst).Nodup := by
  induction rs generalizing g fs with
  | nil => exact hfs
  | cons r rs ih =>
    unfold Grid.csvLoop
    split
    · exact hfs
    · refine ih (List.nodup_cons.1 hrs).2 _ _ ?_ ?_
      · rw [List.map_append, List.nodup_append]
        refine ⟨hfs, by simp, ?_⟩
        intro a ha b hb e
        subst e
        obtain ⟨f, hf, rfl⟩ := List.mem_map.1 ha
        simp only [List.map_cons, List.map_nil, List.mem_singleton] at hb
        exact hdis f hf (by rw [hb]; simp)
      · intro f hf
        rcases List.mem_append.1 hf with hf | hf
        · exact fun h => hdis f hf (by simp [h])
        · simp only [List.mem_singleton] at hf
          subst hf
          exact (List.nodup_cons.1 hrs).1

theorem exportCsv_keys [NamesLike τ] (env : Env) (g : Grid τ) (zUp : Bool) (res : Option ℚ) (hg : g.resolutions.Nodup) : ((g.exportCsv env zUp res).2.1.map Prod.fst).Nodup := by
  unfold Grid.exportCsv
  refine csvLoop_keys _ _ _ ?_ _ _ (by simp) (by simp)
  cases res with
  | none => exact hg
  | some r => simp

/-! ### the path that is used -/

theorem pathSplit_join {h f : Path} (hf : '/' ∉ f) (hh : h.all (fun c => c == '/') = true ∨ h.getLast? ≠ some '/' ∧ h ≠ []) : (pathSplit (pathJoin h f)).1 = h := by
  have hj : f.head? ≠ some '/' := by
    intro e
    rw [List.head?_eq_some_iff] at e
    obtain ⟨l, rfl⟩ := e
    simp at hf
  unfold pathJoin
  rw [if_neg hj]
  rcases hh with hh | ⟨hh, hne⟩
  · have hlast : h = [] ∨ h.getLast? = some '/' := by
      rcases List.eq_nil_or_concat h with e | ⟨l, c, e⟩
      · exact Or.inl e
      · right
        subst e
        rw [List.all_eq_true] at hh
        have := hh c (by simp)
        simp only [beq_iff_eq] at this
        subst this
        simp
    rw [if_pos hlast]
    unfold pathSplit
    rw [(parts_of hlast hf).1]
    simp only [hh, if_true]
  · rw [if_neg (by rintro (h | h) <;> contradiction)]
    unfold pathSplit
    have e : h ++ '/' :: f = (h ++ ['/']) ++ f := by simp
    rw [e, (parts_of (Or.inr (by simp)) hf).1]
    have hall : (h ++ ['/']).all (fun c => c == '/') = false := by
      rw [Bool.eq_false_iff]
      intro hall
      rw [List.all_eq_true] at hall
      obtain ⟨l, c, e⟩ := (List.eq_nil_or_concat h).resolve_left hne
      have := hall c (by simp [e])
      simp only [beq_iff_eq] at this
      rw [e, this] at hh
      simp at hh
    simp only [hall]
    unfold rstripSlash
    rw [List.reverse_append]
    obtain ⟨l, c, e⟩ := (List.eq_nil_or_concat h).resolve_left hne
    subst e
    have hc : c ≠ '/' := by
      rintro rfl
      simp at hh
    simp [hc]

theorem splitHead_ok (p : Path) : (pathSplit p).1.all (fun c => c == '/') = true ∨ (pathSplit p).1.getLast? ≠ some '/' ∧ (pathSplit p).1 ≠ [] := by
  unfold pathSplit
  simp only
  split
  · rename_i h; exact Or.inl h
  · rename_i h
    right
    unfold rstripSlash
    rcases e : (dirPart p).reverse.dropWhile (fun c => c == '/') with _ | ⟨c, l⟩
    · exfalso
      rw [List.dropWhile_eq_nil_iff] at e
      apply h
      rw [List.all_eq_true]
      intro c hc
      exact e c (by simpa using hc)
    · have := List.head_dropWhile_not (fun c : Char => c == '/') (l := (dirPart p).reverse) (by rw [e]; simp)
      simp only [e, List.head_cons] at this
      have hc : c ≠ '/' := by simpa using this
      simp [hc]

/-- the folder does not depend on the part after the last slash -/
theorem pathSplit_dir {p q : Path} (h : dirPart p = dirPart q) : (pathSplit p).1 = (pathSplit q).1 := by
  unfold pathSplit; rw [h]

/-- a part of the name of a file with its time -/
theorem splitExt_no (p : Path) (h : '/' ∉ p) : '/' ∉ (splitExt p).1 ∧ '/' ∉ (splitExt p).2 := by
  have := (splitExt_append p).1
  constructor
  · intro hm; exact h (by rw [← this]; simp [hm])
  · intro hm; exact h (by rw [← this]; simp [hm])

theorem exportPath_folder (taken : Path → Bool) {stamp : List Char} (hs : '/' ∉ stamp) (path : Path) : (pathSplit (exportPath taken stamp path)).1 = (pathSplit path).1 := by
  unfold exportPath
  split
  · simp only
    apply pathSplit_join _ (splitHead_ok path)
    obtain ⟨h1, h2⟩ := splitExt_no (pathSplit path).2 (filePart_no path)
    simp [h1, h2, hs]
  · rfl

theorem splitExt_eq (p : Path) : splitExt p =
    if (filePart p).contains '.' && !(((filePart p).reverse.dropWhile (fun c => c != '.')).drop 1).reverse.all (fun c => c == '.') then
      (dirPart p ++ (((filePart p).reverse.dropWhile (fun c => c != '.')).drop 1).reverse, '.' :: ((filePart p).reverse.takeWhile (fun c => c != '.')).reverse) else (p, []) := rfl

/-- splitting a name with the time in it: the time belongs to the stem -/
theorem splitExt_stamp {d f : Path} (hd : d = [] ∨ d.getLast? = some '/') (hf : '/' ∉ f) {stamp : List Char} (hs : '/' ∉ stamp) (hdot : '.' ∉ stamp) :
    (splitExt (d ++ ((splitExt f).1 ++ '_' :: stamp ++ (splitExt f).2))).1 = d ++ ((splitExt f).1 ++ '_' :: stamp) := by
  obtain ⟨n1, n2⟩ := splitExt_no f hf
  have hno : '/' ∉ (splitExt f).1 ++ '_' :: stamp ++ (splitExt f).2 := by simp [n1, n2, hs]
  obtain ⟨p1, p2⟩ := parts_of hd hno
  rw [splitExt_eq, p1, p2]
  have hff : filePart f = f ∧ dirPart f = [] := by
    have := parts_of (d := []) (Or.inl rfl) hf
    exact ⟨this.2, this.1⟩
  rcases (splitExt_append f).2 with he | ⟨e, he, hed, -⟩
  · -- no extension: the dots are at the beginning of the name
    rw [he, List.append_nil]
    have hfe : (splitExt f).1 = f := by have := (splitExt_append f).1; rw [he, List.append_nil] at this; exact this
    rw [hfe]
    have hcond : ¬ ((f.contains '.' && !(((f.reverse.dropWhile (fun c => c != '.')).drop 1).reverse).all (fun c => c == '.')) = true) := by
      intro hc
      have h2 := he
      unfold splitExt at h2
      simp only [hff.1] at h2
      rw [if_pos hc] at h2
      cases h2
    have htail : ∀ c ∈ ('_' :: stamp).reverse, (c != '.') = true := by
      intro c hc
      rw [List.mem_reverse] at hc
      rcases List.mem_cons.1 hc with rfl | hc
      · decide
      · simp only [bne_iff_ne, ne_eq]; rintro rfl; exact hdot hc
    have hdrop : (f ++ '_' :: stamp).reverse.dropWhile (fun c => c != '.') = f.reverse.dropWhile (fun c => c != '.') := by
      rw [List.reverse_append, List.dropWhile_append_of_pos htail]
    have hcont : (f ++ '_' :: stamp).contains '.' = f.contains '.' := by
      rw [Bool.eq_iff_iff]
      simp [hdot]
    rw [hdrop, hcont, if_neg hcond]
  · have hstem : ((splitExt f).1 ++ '_' :: stamp ++ (splitExt f).2).reverse = e.reverse ++ '.' :: ((splitExt f).1 ++ '_' :: stamp).reverse := by
      rw [he]; simp
    have htake : ∀ c ∈ e.reverse, (c != '.') = true := by
      intro c hc
      simp only [bne_iff_ne, ne_eq]
      rintro rfl
      exact hed (by simpa using hc)
    have hdrop : (((splitExt f).1 ++ '_' :: stamp ++ (splitExt f).2).reverse.dropWhile (fun c => c != '.')) = '.' :: ((splitExt f).1 ++ '_' :: stamp).reverse := by
      rw [hstem, List.dropWhile_append_of_pos htake]
      simp
    rw [hdrop]
    simp only [List.drop_succ_cons, List.drop_zero, List.reverse_reverse]
    rw [if_pos]
    rw [Bool.and_eq_true]
    constructor
    · rw [he]; simp
    · rw [Bool.not_eq_true', Bool.eq_false_iff]
      intro hall
      rw [List.all_eq_true] at hall
      have := hall '_' (by simp)
      revert this; decide

end Bathy
