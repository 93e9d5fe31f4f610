import Verif.Model.Files
import Mathlib.Data.List.Nodup
import Mathlib.Tactic.Linarith

/-!
# C60: which folders are grids.  C61: new folders.  C62: deleting with retries.

Model: bathygrid/convenience.py, bathygrid/utilities.py:70-100, 389-407 (Model/Files).
-/

namespace Bathy

/-! ## C60 -/

/-- the entry names of the grid root folders -/
def IsRoot (f : String) : Prop := f = "SRGrid_Root" ∨ f = "VRGridTile_Root" ∨ f = "SRGridZarr_Root" ∨ f = "VRGridTileZarr_Root"

/-- the class that goes with the name -/
inductive ClassOf : String → GridClass → Prop
  | sr : ClassOf "SRGrid_Root" .srGrid
  | vr : ClassOf "VRGridTile_Root" .vrGridTile
  | srz : ClassOf "SRGridZarr_Root" .srGridZarr
  | vrz : ClassOf "VRGridTileZarr_Root" .vrGridTileZarr

theorem mem_rootNames (f : String) : rootNames.contains f = true ↔ IsRoot f := by
  unfold rootNames IsRoot
  simp

/-- **C60**: a folder (any listing without repeated names) is accepted by `load_grid` exactly if one and only one of its entries has the name of a grid root folder,
and then the class of the grid goes with that name; everything else raises. -/
theorem C60_load_grid (listing : List String) (hn : listing.Nodup) (c : GridClass) :
    loadClass (some (.dir listing)) = .ok c ↔ ∃ f ∈ listing, ClassOf f c ∧ ∀ f' ∈ listing, IsRoot f' → f' = f := by
  have hcls : ∀ f c, (if f = "SRGrid_Root" then Except.ok GridClass.srGrid else if f = "VRGridTile_Root" then .ok .vrGridTile else if f = "SRGridZarr_Root" then .ok .srGridZarr
      else if f = "VRGridTileZarr_Root" then .ok .vrGridTileZarr else .error Err.notImplemented) = Except.ok c ↔ ClassOf f c := by
    intro f c
    constructor
    · intro h
      split at h
      · rename_i hf; cases h; rw [hf]; exact .sr
      · split at h
        · rename_i hf; cases h; rw [hf]; exact .vr
        · split at h
          · rename_i hf; cases h; rw [hf]; exact .srz
          · split at h
            · rename_i hf; cases h; rw [hf]; exact .vrz
            · cases h
    · intro h; cases h <;> rfl
  have hroot : ∀ {f c}, ClassOf f c → IsRoot f := by intro f c h; cases h <;> simp [IsRoot]
  have hmem : ∀ f, f ∈ listing.filter (fun f => rootNames.contains f) ↔ f ∈ listing ∧ IsRoot f := by
    intro f; rw [List.mem_filter, mem_rootNames]
  have hnd : (listing.filter (fun f => rootNames.contains f)).Nodup := hn.filter _
  unfold loadClass validateLoadPath
  simp only
  by_cases hl : listing.length = 0
  · rw [if_pos hl]
    have : listing = [] := List.length_eq_zero_iff.1 hl
    subst this
    simp
  · rw [if_neg hl]
    generalize listing.filter (fun f => rootNames.contains f) = L at hmem hnd
    match L with
    | [] =>
      simp only
      constructor
      · intro h; cases h
      · rintro ⟨f, hf, hc, -⟩
        have := (hmem f).2 ⟨hf, hroot hc⟩
        simp at this
    | [f] =>
      simp only
      rw [hcls]
      constructor
      · intro h
        refine ⟨f, ((hmem f).1 (by simp)).1, h, ?_⟩
        intro f' hf' hr
        have := (hmem f').2 ⟨hf', hr⟩
        simpa using this
      · rintro ⟨f', hf', hc, -⟩
        have := (hmem f').2 ⟨hf', hroot hc⟩
        rw [List.mem_singleton] at this
        rw [← this]; exact hc
    | a :: b :: l =>
      simp only
      constructor
      · intro h; cases h
      · rintro ⟨f, hf, hc, hu⟩
        have ha := (hmem a).1 (by simp)
        have hb := (hmem b).1 (by simp)
        have : a = b := (hu a ha.1 ha.2).trans (hu b hb.1 hb.2).symm
        rw [this] at hnd
        simp at hnd

/-- a missing folder and a file are refused -/
theorem C60_not_a_folder (c : GridClass) : loadClass none ≠ .ok c ∧ loadClass (some .file) ≠ .ok c := by
  constructor <;> (intro h; cases h)

/-- **C60**: `is_bathygrid` is True exactly if the path is a folder with an entry that has the name of a grid root folder. -/
theorem C60_is_bathygrid (place : Option Entry) : isBathygrid place = true ↔ ∃ listing, place = some (.dir listing) ∧ ∃ f ∈ listing, IsRoot f := by
  unfold isBathygrid
  match place with
  | none => simp
  | some .file => simp
  | some (.dir listing) =>
    simp only [List.any_eq_true, mem_rootNames]
    constructor
    · intro h; exact ⟨listing, rfl, h⟩
    · rintro ⟨l, h, hf⟩; cases h; exact hf

/-- `create_grid` accepts exactly two types, two backends and sizes that are powers of two (a subtile size only counts for the variable resolution type), … -/
theorem C60_create_grid (t b : String) (size sub : ℚ) (c : GridClass) : createClass t b size sub = .ok c ↔
    isPowerOfTwo size = true ∧ ((t = "single_resolution" ∧ ((b = "numpy" ∧ c = .srGrid) ∨ (b = "zarr" ∧ c = .srGridZarr))) ∨
      (t = "variable_resolution_tile" ∧ isPowerOfTwo sub = true ∧ ((b = "numpy" ∧ c = .vrGridTile) ∨ (b = "zarr" ∧ c = .vrGridTileZarr)))) := by
  unfold createClass
  by_cases h1 : t = "single_resolution"
  · subst h1
    by_cases h2 : b = "numpy"
    · subst h2
      cases isPowerOfTwo size <;> cases c <;> simp
    · by_cases h3 : b = "zarr"
      · subst h3
        cases isPowerOfTwo size <;> cases c <;> simp
      · simp [h2, h3]
  · by_cases h1' : t = "variable_resolution_tile"
    · subst h1'
      by_cases h2 : b = "numpy"
      · subst h2
        cases isPowerOfTwo size <;> cases isPowerOfTwo sub <;> cases c <;> simp
      · by_cases h3 : b = "zarr"
        · subst h3
          cases isPowerOfTwo size <;> cases isPowerOfTwo sub <;> cases c <;> simp
        · simp [h2, h3]
    · simp [h1, h1']

/-- … and a folder in which such a grid was saved is loaded as the same class, whatever else is in the folder, as long as it is not another grid. -/
theorem C60_created_is_loaded {t b : String} {size sub : ℚ} {c : GridClass} (_ : createClass t b size sub = .ok c) (listing : List String) (hn : listing.Nodup) (hm : c.rootName ∈ listing)
    (ho : ∀ f ∈ listing, IsRoot f → f = c.rootName) : loadClass (some (.dir listing)) = .ok c :=
  (C60_load_grid listing hn c).2 ⟨c.rootName, hm, by cases c <;> constructor, ho⟩

/-- a folder with two roots is a bathygrid folder that cannot be loaded -/
example : isBathygrid (some (.dir ["notes.txt", "SRGrid_Root", "VRGridTile_Root"])) = true ∧ loadClass (some (.dir ["notes.txt", "SRGrid_Root", "VRGridTile_Root"])) = .error .ioError ∧
    loadClass (some (.dir ["notes.txt", "VRGridTileZarr_Root"])) = .ok .vrGridTileZarr ∧ createClass "variable_resolution_tile" "zarr" 1024 128 = .ok .vrGridTileZarr := by
  decide +kernel

/-! ## C61 -/

/-- nothing at the name, or a folder without entries -/
def FreeAt (d : Dict String Entry) (name : String) : Prop := d.get? name = none ∨ d.get? name = some (.dir [])

theorem mkdir_err_none {d : Dict String Entry} {n : String} : (Folder.mkdir d n).err = none ↔ Folder.look d n = none := by
  unfold Folder.mkdir
  split
  · rename_i h; simp [h]
  · rename_i h; simp [h]

theorem mkdir_st {d : Dict String Entry} {n : String} (h : Folder.look d n = none) : (Folder.mkdir d n).st = d.set n (.dir []) := by
  unfold Folder.mkdir; rw [h]; rfl

/-- **C61**: if `create_folder` returns a name (not empty), there was nothing under that name, or an empty folder; afterwards there is an empty folder, every other entry
is as before, and the name is the one asked for, or that name with the time added. -/
theorem C61_create_folder (d : Dict String Entry) (fldrname tstmp name : String) (hf : fldrname ≠ "") (h : (createFolder d fldrname tstmp).2 = .ok name) :
    FreeAt d name ∧ (createFolder d fldrname tstmp).1.get? name = some (.dir []) ∧ (∀ other, other ≠ name → (createFolder d fldrname tstmp).1.get? other = d.get? other) ∧
      (name = fldrname ∨ name = fldrname ++ "_" ++ tstmp) := by
  have hl : Folder.look d fldrname = d.get? fldrname := by unfold Folder.look; rw [if_neg hf]
  unfold createFolder at h ⊢
  split
  · rename_i he
    rw [he] at h
    cases h
    have hn := mkdir_err_none.1 he
    rw [mkdir_st hn]
    rw [hl] at hn
    exact ⟨Or.inl hn, Dict.get?_set_self .., fun o ho => Dict.get?_set_ne _ _ ho, Or.inl rfl⟩
  · rename_i e he
    rw [he] at h
    simp only at h
    split
    · rename_i hd
      rw [hd] at h
      cases h
      rw [hl] at hd
      exact ⟨Or.inr hd, hd, fun _ _ => rfl, Or.inl rfl⟩
    · rename_i hd
      rw [hd] at h
      simp only at h ⊢
      split
      · rename_i he2
        rw [he2] at h
        cases h
        have hn := mkdir_err_none.1 he2
        rw [mkdir_st hn]
        have hne : fldrname ++ "_" ++ tstmp ≠ "" := by
          intro h0
          have := congrArg String.length h0
          simp [String.length_append] at this
        unfold Folder.look at hn
        rw [if_neg hne] at hn
        exact ⟨Or.inl hn, Dict.get?_set_self .., fun o ho => Dict.get?_set_ne _ _ ho, Or.inr rfl⟩
      · rename_i he2
        rw [he2] at h
        cases h
    · rename_i hd
      rw [hd] at h
      cases h
    · rename_i hd
      rw [hd] at h
      cases h

/-- **C61**: if it raises, nothing is changed; it raises only if there is a file under the name asked for, or a folder with entries and something under the name with
the time added -/
theorem C61_raises (d : Dict String Entry) (fldrname tstmp : String) (hf : fldrname ≠ "") {e : Err} (h : (createFolder d fldrname tstmp).2 = .error e) :
    (createFolder d fldrname tstmp).1 = d ∧ (d.get? fldrname = some .file ∨ ((∃ l, l ≠ [] ∧ d.get? fldrname = some (.dir l)) ∧ d.get? (fldrname ++ "_" ++ tstmp) ≠ none)) := by
  have hl : Folder.look d fldrname = d.get? fldrname := by unfold Folder.look; rw [if_neg hf]
  unfold createFolder at h ⊢
  split
  · rename_i he
    rw [he] at h
    cases h
  · rename_i e he
    rw [he] at h
    simp only at h
    split
    · rename_i hd
      rw [hd] at h
      cases h
    · rename_i hd
      rw [hd] at h
      simp only at h ⊢
      split
      · rename_i he2
        rw [he2] at h
        cases h
      · rename_i he2
        refine ⟨rfl, Or.inr ⟨⟨_, List.cons_ne_nil _ _, hl ▸ hd⟩, ?_⟩⟩
        intro hn
        have hne : fldrname ++ "_" ++ tstmp ≠ "" := by
          intro h0
          have := congrArg String.length h0
          simp [String.length_append] at this
        rw [(mkdir_err_none (d := d)).2 (by unfold Folder.look; rw [if_neg hne]; exact hn)] at he2
        cases he2
    · rename_i hd
      exact ⟨rfl, Or.inl (hl ▸ hd)⟩
    · rename_i hd
      rw [mkdir_err_none.2 hd] at he
      cases he

/-- the hypotheses of C61 are met -/
example : (createFolder [("g", .dir ["SRGrid_Root"]), ("h", .dir [])] "g" "20240101_000000").2 = .ok "g_20240101_000000" ∧ (createFolder [("g", .dir ["SRGrid_Root"]), ("h", .dir [])] "h" "20240101_000000").2 = .ok "h" ∧
    (createFolder [("g", .dir ["SRGrid_Root"]), ("g_20240101_000000", .dir [])] "g" "20240101_000000").2 = .error .fileExistsError ∧ (createFolder [("g", .file)] "g" "20240101_000000").2 = .error .notADirectoryError := by
  decide +kernel

/-! ## C62 -/

/-- what a call may do: `n` deletions were tried, all but the last were denied -/
def AllDenied (outcome : Nat → Attempt) (n : Nat) : Prop := ∀ k, k + 1 < n → outcome k = .denied

theorem removeLoop_spec (outcome : Nat → Attempt) (retries : Nat) : ∀ (k attempt tries waits : Nat), attempt + k = retries + 1 → tries + 1 = attempt → waits = tries → (∀ j < tries, outcome j = .denied) → 0 < k →
    ∃ n, 0 < n ∧ n ≤ retries + 1 ∧ AllDenied outcome n ∧ (removeLoop outcome retries attempt tries waits k).tries = n ∧
      (removeLoop outcome retries attempt tries waits k).waits = (if n = retries + 1 then n - 2 else n - 1) ∧
      ((outcome (n - 1) = .done ∧ (removeLoop outcome retries attempt tries waits k).err = none) ∨
       (∃ e, outcome (n - 1) = .other e ∧ (removeLoop outcome retries attempt tries waits k).err = some e) ∨
       (outcome (n - 1) = .denied ∧ n = retries + 1 ∧ (removeLoop outcome retries attempt tries waits k).err = some .permissionError)) := by
  intro k
  induction k with
  | zero => intro attempt tries waits _ _ _ _ h; exact absurd h (by omega)
  | succ k ih =>
    intro attempt tries waits hk ht hw hd _
    rw [removeLoop]
    cases ho : outcome tries with
    | done =>
      simp only
      refine ⟨tries + 1, by omega, by omega, fun j hj => hd j (by omega), by simp, ?_, Or.inl ⟨by simpa using ho, by simp⟩⟩
      rw [if_neg (by omega)]; simpa using hw
    | other e =>
      simp only
      refine ⟨tries + 1, by omega, by omega, fun j hj => hd j (by omega), by simp, ?_, Or.inr (Or.inl ⟨e, by simpa using ho, by simp⟩)⟩
      rw [if_neg (by omega)]; simpa using hw
    | denied =>
      simp only
      have hd' : ∀ j < tries + 1, outcome j = .denied := by
        intro j hj
        rcases Nat.lt_succ_iff_lt_or_eq.1 hj with h | h
        · exact hd j h
        · rw [h]; exact ho
      by_cases ha : attempt < retries
      · rw [if_pos ha]
        exact ih (attempt + 1) (tries + 1) (waits + 1) (by omega) (by omega) (by omega) hd' (by omega)
      · rw [if_neg ha]
        have hk0 : k = 0 := by omega
        subst hk0
        have hr : retries + 1 = tries + 2 := by omega
        have hall : AllDenied outcome (tries + 2) := fun j hj => hd' j (by omega)
        cases ho2 : outcome (tries + 1) with
        | done =>
          simp only [removeLoop]
          refine ⟨tries + 2, by omega, by omega, hall, by simp, ?_, Or.inl ⟨by simpa using ho2, by simp⟩⟩
          rw [if_pos (by omega)]; simpa using hw
        | denied =>
          simp only
          refine ⟨tries + 2, by omega, by omega, hall, by simp, ?_, Or.inr (Or.inr ⟨by simpa using ho2, by omega, by simp⟩)⟩
          rw [if_pos (by omega)]; simpa using hw
        | other e =>
          simp only
          refine ⟨tries + 2, by omega, by omega, hall, by simp, ?_, Or.inr (Or.inl ⟨e, by simpa using ho2, by simp⟩)⟩
          rw [if_pos (by omega)]; simpa using hw

/-- **C62**: a call with at least one retry, on an existing folder, tries `n` deletions, at most `retries + 1`, all but the last of them denied.  It returns if the last one worked,
raises its exception if it was not a PermissionError, and raises PermissionError only if all `retries + 1` deletions were denied. -/
theorem C62_removal (outcome : Nat → Attempt) (retries : Nat) (hr : 0 < retries) :
    ∃ n, 0 < n ∧ n ≤ retries + 1 ∧ (removeWithPermissionError true outcome retries).tries = n ∧ (∀ k, k + 1 < n → outcome k = .denied) ∧
      ((outcome (n - 1) = .done ∧ (removeWithPermissionError true outcome retries).err = none) ∨
       (∃ e, outcome (n - 1) = .other e ∧ (removeWithPermissionError true outcome retries).err = some e) ∨
       (outcome (n - 1) = .denied ∧ n = retries + 1 ∧ (removeWithPermissionError true outcome retries).err = some .permissionError)) := by
  obtain ⟨n, h1, h2, h3, h4, -, h5⟩ := removeLoop_spec outcome retries retries 1 0 0 (by omega) rfl rfl (by omega) hr
  exact ⟨n, h1, h2, h4, h3, h5⟩

/-- **C62** (waiting): the call waits once between two deletions, but not before the last one it is allowed to try; it never waits more than `retries - 1` times -/
theorem C62_waits (outcome : Nat → Attempt) (retries : Nat) (hr : 0 < retries) :
    let out := removeWithPermissionError true outcome retries
    (out.tries ≤ retries → out.waits + 1 = out.tries) ∧ (out.tries = retries + 1 → out.waits + 1 = retries) := by
  obtain ⟨n, h1, h2, h3, h4, h5, -⟩ := removeLoop_spec outcome retries retries 1 0 0 (by omega) rfl rfl (by omega) hr
  have e1 : (removeWithPermissionError true outcome retries).tries = n := h4
  have e2 : (removeWithPermissionError true outcome retries).waits = if n = retries + 1 then n - 2 else n - 1 := h5
  simp only
  rw [e1, e2]
  constructor
  · intro h
    rw [if_neg (by omega)]
    omega
  · intro h
    rw [if_pos h]
    omega

/-- **C62**: it succeeds if one of the deletions up to number `retries` (from 0: one more than asked for) works and those before it were denied -/
theorem C62_succeeds (outcome : Nat → Attempt) (retries k : Nat) (hr : 0 < retries) (hk : k ≤ retries) (hd : ∀ j < k, outcome j = .denied) (ho : outcome k = .done) :
    (removeWithPermissionError true outcome retries).err = none ∧ (removeWithPermissionError true outcome retries).tries = k + 1 := by
  obtain ⟨n, h1, h2, h3, h4, h5⟩ := C62_removal outcome retries hr
  have hn : n = k + 1 := by
    rcases Nat.lt_trichotomy n (k + 1) with h | h | h
    · have := hd (n - 1) (by omega)
      rw [this] at h5
      rcases h5 with ⟨h5, -⟩ | ⟨e, h5, -⟩ | ⟨-, h5, -⟩
      · cases h5
      · cases h5
      · omega
    · exact h
    · have := h4 k (by omega)
      rw [ho] at this; cases this
  subst hn
  rw [Nat.add_sub_cancel, ho] at h5
  refine ⟨?_, h3⟩
  rcases h5 with ⟨-, h5⟩ | ⟨e, h5, -⟩ | ⟨h5, -⟩
  · exact h5
  · cases h5
  · cases h5

/-- **C62**: PermissionError is raised if and only if every one of the `retries + 1` deletions is denied -/
theorem C62_permission_error (outcome : Nat → Attempt) (retries : Nat) (hr : 0 < retries) (hno : ∀ k, outcome k ≠ .other .permissionError) :
    (removeWithPermissionError true outcome retries).err = some .permissionError ↔ ∀ k ≤ retries, outcome k = .denied := by
  obtain ⟨n, h1, h2, h3, h4, h5⟩ := C62_removal outcome retries hr
  constructor
  · intro h
    rcases h5 with ⟨-, h5⟩ | ⟨e, h6, h5⟩ | ⟨h6, h5, -⟩
    · rw [h] at h5; cases h5
    · rw [h] at h5; cases h5; exact absurd h6 (hno _)
    · subst h5
      intro k hk
      rcases Nat.lt_or_ge k retries with hk' | hk'
      · exact h4 k (by omega)
      · have : k = retries + 1 - 1 := by omega
        rw [this]; exact h6
  · intro h
    have := h (n - 1) (by omega)
    rcases h5 with ⟨h5, -⟩ | ⟨e, h5, -⟩ | ⟨-, -, h5⟩
    · rw [this] at h5; cases h5
    · rw [this] at h5; cases h5
    · exact h5

/-- **C62**: nothing is deleted if and only if there is no such folder or no retries are asked for; the call returns then, in the second case although the folder is still there -/
theorem C62_nothing_tried (found : Bool) (outcome : Nat → Attempt) (retries : Nat) :
    ((removeWithPermissionError found outcome retries).tries = 0 ↔ found = false ∨ retries = 0) ∧
    (found = false ∨ retries = 0 → (removeWithPermissionError found outcome retries).err = none ∧ (removeWithPermissionError found outcome retries).waits = 0) := by
  have key : found = false ∨ retries = 0 → removeWithPermissionError found outcome retries = ⟨0, 0, none⟩ := by
    rintro (rfl | rfl)
    · rfl
    · cases found <;> rfl
  refine ⟨⟨fun h => ?_, fun h => by rw [key h]⟩, fun h => by rw [key h]; exact ⟨rfl, rfl⟩⟩
  cases found with
  | false => exact Or.inl rfl
  | true =>
    right
    by_contra hr
    obtain ⟨n, h1, -, h2, -⟩ := C62_removal outcome retries (by omega)
    omega

/-- the hypotheses of C62 are met: denied twice, then deleted; and denied four times with three retries -/
example : removeWithPermissionError true (fun k => if k < 2 then .denied else .done) 3 = ⟨3, 2, none⟩ ∧ removeWithPermissionError true (fun _ => .denied) 3 = ⟨4, 2, some .permissionError⟩ ∧
    removeWithPermissionError true (fun k => if k < 3 then .denied else .done) 3 = ⟨4, 2, none⟩ := by decide +kernel

end Bathy
