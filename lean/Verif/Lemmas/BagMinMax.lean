import Verif.Model.BagMinMax
import Verif.Lemmas.ChunkData
import Mathlib.Order.Bounds.Basic

/-!
# lemmas about the attributes of a BAG
-/

namespace Bathy

/-- the largest or the smallest of numbers -/
theorem npExtreme_spec (f : ℚ → ℚ → ℚ) (R : ℚ → ℚ → Prop) (hrefl : ∀ a, R a a) (htrans : ∀ a b c, R a b → R b c → R a c)
    (hf : ∀ a b, (f a b = a ∨ f a b = b) ∧ R a (f a b) ∧ R b (f a b)) {vs : List (Option ℚ)} (hne : vs ≠ []) (hall : ∀ v ∈ vs, v ≠ none) :
    ∃ m, npExtreme f vs = .ok (some m) ∧ some m ∈ vs ∧ ∀ w, some w ∈ vs → R w m := by
  have key : ∀ (vs : List (Option ℚ)) (v : ℚ), (∀ w ∈ vs, w ≠ none) → ∃ m, vs.foldl (fun m w => match m, w with | some m, some w => some (f m w) | _, _ => none) (some v) = some m ∧
      (m = v ∨ some m ∈ vs) ∧ R v m ∧ ∀ w, some w ∈ vs → R w m := by
    intro vs
    induction vs with
    | nil => intro v _; exact ⟨v, rfl, Or.inl rfl, hrefl v, by simp⟩
    | cons u us ih =>
      intro v hv
      obtain ⟨u, rfl⟩ := Option.ne_none_iff_exists'.1 (hv u (by simp))
      obtain ⟨m, h1, h2, h3, h4⟩ := ih (f v u) (fun w hw => hv w (by simp [hw]))
      obtain ⟨e, r1, r2⟩ := hf v u
      refine ⟨m, h1, ?_, htrans _ _ _ r1 h3, ?_⟩
      · rcases h2 with h2 | h2
        · rcases e with e | e
          · exact Or.inl (h2.trans e)
          · right; rw [h2, e]; simp
        · right; simp [h2]
      · intro w hw
        rcases List.mem_cons.1 hw with hw | hw
        · cases hw; exact htrans _ _ _ r2 h3
        · exact h4 w hw
  cases vs with
  | nil => exact absurd rfl hne
  | cons v vs =>
    obtain ⟨v, rfl⟩ := Option.ne_none_iff_exists'.1 (hall v (by simp))
    obtain ⟨m, h1, h2, h3, h4⟩ := key vs v (fun w hw => hall w (by simp [hw]))
    refine ⟨m, congrArg Except.ok h1, ?_, ?_⟩
    · rcases h2 with h2 | h2
      · rw [h2]; simp
      · simp [h2]
    · intro w hw
      rcases List.mem_cons.1 hw with hw | hw
      · cases hw; exact h3
      · exact h4 w hw

theorem npMax_spec {vs : List (Option ℚ)} (hne : vs ≠ []) (hall : ∀ v ∈ vs, v ≠ none) : ∃ m, npExtreme max vs = .ok (some m) ∧ IsGreatest {w | some w ∈ vs} m := by
  obtain ⟨m, h1, h2, h3⟩ := npExtreme_spec max (fun a b => a ≤ b) (fun a => le_refl a) (fun a b c => le_trans)
    (fun a b => ⟨max_choice a b, le_max_left a b, le_max_right a b⟩) hne hall
  exact ⟨m, h1, h2, fun w hw => h3 w hw⟩

theorem npMin_spec {vs : List (Option ℚ)} (hne : vs ≠ []) (hall : ∀ v ∈ vs, v ≠ none) : ∃ m, npExtreme min vs = .ok (some m) ∧ IsLeast {w | some w ∈ vs} m := by
  obtain ⟨m, h1, h2, h3⟩ := npExtreme_spec min (fun a b => b ≤ a) (fun a => le_refl a) (fun a b c h h' => le_trans h' h)
    (fun a b => ⟨min_choice a b, min_le_left a b, min_le_right a b⟩) hne hall
  exact ⟨m, h1, h2, fun w hw => h3 w hw⟩

/-- values at the places where another array of the same shape has the property -/
theorem mem_masked {a b : LayerArr} (ha : a.WF) (hb : b.WF) (hr : a.rows = b.rows) (hc : a.cols = b.cols) (p : Option ℚ → Bool) (v : Option ℚ) :
    v ∈ boolIndex b.flat (a.flat.map p) ↔ ∃ i j w, a.get? i j = some w ∧ p w = true ∧ b.get? i j = some v := by
  have hlen : a.flat.length = b.flat.length := by rw [ha, hb, hr, hc]
  unfold boolIndex
  simp only [List.mem_map, List.mem_filter, Prod.exists, exists_and_right, exists_eq_right]
  constructor
  · intro hq
    obtain ⟨k, hk⟩ := List.mem_iff_getElem?.1 hq
    rw [List.getElem?_zip_eq_some, List.getElem?_map] at hk
    obtain ⟨k1, k2⟩ := hk
    obtain ⟨w, hw, hpw⟩ := Option.map_eq_some_iff.1 k2
    have hkl : k < a.flat.length := (List.getElem?_eq_some_iff.1 hw).1
    have hw' := hw
    rw [Arr2.flat_getElem?_eq a ha hkl] at hw'
    rw [Arr2.flat_getElem?_eq b hb (by omega), ← hc] at k1
    exact ⟨_, _, w, hw', hpw, k1⟩
  · rintro ⟨i, j, w, h1, h2, h3⟩
    have hij : i < a.rows ∧ j < a.cols := by
      by_contra hn; rw [Arr2.get?_none_of_not_lt a hn] at h1; cases h1
    rw [Arr2.get?_eq_flat a hij.1 hij.2] at h1
    rw [Arr2.get?_eq_flat b (by omega) (by omega), ← hc] at h3
    refine List.mem_iff_getElem?.2 ⟨i * a.cols + j, ?_⟩
    rw [List.getElem?_zip_eq_some, List.getElem?_map, h1, Option.map_some, h2]
    exact ⟨h3, rfl⟩

theorem transpose_wf (a : LayerArr) : (transpose a).WF := Arr2.ofFn_wf _ _ _

theorem transpose_get {a : LayerArr} (hw : a.WF) (i j : Nat) : (transpose a).get? i j = a.get? j i := by
  by_cases h : j < a.rows ∧ i < a.cols
  · obtain ⟨v, hv⟩ := Arr2.get?_isSome a hw h.1 h.2
    unfold transpose
    rw [Arr2.get?_ofFn _ h.2 h.1, hv]; rfl
  · rw [Arr2.get?_none_of_not_lt a h, Arr2.get?_none_of_not_lt]
    intro hn; exact h ⟨hn.2, hn.1⟩

/-! ### all arrays of a file have the same shape -/

/-- arrays of one shape -/
def OneShape (as : List LayerArr) : Prop := ∃ R C, ∀ a ∈ as, a.WF ∧ a.rows = R ∧ a.cols = C

theorem pasteTiles_shape {n : Nat} {l : Layer} (tiles : List (Nat × Nat × Dict Layer LayerArr)) {a a' : LayerArr} (h : pasteTiles n l a tiles = .ok a') :
    a'.rows = a.rows ∧ a'.cols = a.cols := by
  induction tiles generalizing a with
  | nil => unfold pasteTiles at h; cases h; exact ⟨rfl, rfl⟩
  | cons t ts ih =>
    obtain ⟨r, c, d⟩ := t
    unfold pasteTiles at h
    split at h
    · exact ih h
    · rename_i b hb
      split at h
      · cases h
      · rename_i a1 ha1
        obtain ⟨p1, p2, -⟩ := paste_get ha1
        obtain ⟨q1, q2⟩ := ih h
        exact ⟨q1.trans p1, q2.trans p2⟩

theorem finalizeFrom_shape {rows cols n : Nat} {tiles : List (Nat × Nat × Dict Layer LayerArr)} (layers : List Layer) {nodata : Option ℚ} {out D : Dict Layer LayerArr}
    (ho : ∀ q ∈ out, q.2.rows = cols ∧ q.2.cols = rows) (h : finalizeFrom rows cols n tiles true nodata out layers = .ok D) : ∀ q ∈ D, q.2.rows = cols ∧ q.2.cols = rows := by
  induction layers generalizing nodata out with
  | nil => unfold finalizeFrom at h; cases h; exact ho
  | cons l ls ih =>
    unfold finalizeFrom at h
    simp only at h
    split at h
    · cases h
    · rename_i a ha
      obtain ⟨p1, p2⟩ := pasteTiles_shape _ ha
      refine ih ?_ h
      intro q hq
      rcases Dict.mem_set hq with hq | hq
      · rw [hq]
        exact ⟨p2, p1⟩
      · exact ho q hq

theorem finalizeChunk_shape {rows cols : List Nat} {n : Nat} {layers : List Layer} {data : List (Dict Layer LayerArr)} {nodata : Option ℚ} {D : Dict Layer LayerArr}
    (h : finalizeChunk rows cols n layers data nodata true = .ok D) : ∃ R C, ∀ q ∈ D, q.2.rows = C ∧ q.2.cols = R :=
  ⟨_, _, finalizeFrom_shape layers (by simp) h⟩

theorem chunks_shape {τ : Type} [LayerLike τ] (env : Env) (g : Grid τ) (res : ℚ) (layers : List Layer) (nodata : Option ℚ) (zUp : Bool) (d : Option ℚ) :
    ∀ c ∈ (g.getChunks env res layers nodata zUp d true).st.2, OneShape (bands c) := by
  have step : ∀ (s : Grid τ × List Chunk) idx, (∀ c ∈ s.2, OneShape (bands c)) → ∀ c ∈ (Grid.chunkStep env res layers nodata zUp true s idx).st.2, OneShape (bands c) := by
    intro s idx hs
    unfold Grid.chunkStep
    simp only
    split
    · exact hs
    · split
      · exact hs
      · split
        · split
          · exact hs
          · rename_i D hD
            intro c hc
            rcases List.mem_append.1 hc with hc | hc
            · exact hs c hc
            · rw [List.mem_singleton] at hc
              subst hc
              obtain ⟨R, C, hsh⟩ := finalizeChunk_shape hD
              refine ⟨R, C, fun a ha => ?_⟩
              obtain ⟨q, hq, rfl⟩ := List.mem_map.1 ha
              exact ⟨transpose_wf _, (hsh q hq).2, (hsh q hq).1⟩
        · exact hs
  have loop : ∀ (L : List (List (Nat × Nat))) (s : Grid τ × List Chunk), (∀ c ∈ s.2, OneShape (bands c)) →
      ∀ c ∈ (Res.forEach L s (Grid.chunkStep env res layers nodata zUp true)).st.2, OneShape (bands c) := by
    intro L
    induction L with
    | nil => intro s hs; exact hs
    | cons x xs ih =>
      intro s hs
      rw [Res.forEach_cons]
      unfold Res.andThen
      have h1 := step s x hs
      split
      · exact ih _ h1
      · exact h1
  unfold Grid.getChunks
  simp only
  split
  · intro c hc; cases hc
  · exact loop _ _ (by simp)

theorem writeRasters_shape {epsg : Option Int} {res : ℚ} {names : List String} (cs : List Chunk) (k : Nat) (h : ∀ c ∈ cs, OneShape (bands c)) :
    ∀ f ∈ (writeRasters epsg res names k cs).1, OneShape (f.bands.map Prod.snd) := by
  induction cs generalizing k with
  | nil => intro f hf; cases hf
  | cons c cs ih =>
    unfold writeRasters
    split
    · intro f hf; cases hf
    · rename_i f hf
      intro f' hf'
      rcases List.mem_cons.1 hf' with e | hf'
      · subst e
        obtain ⟨R, C, hc⟩ := h c (by simp)
        refine ⟨R, C, fun a ha => hc a ?_⟩
        unfold rasterCreate at hf
        split at hf
        · cases hf
        split at hf
        · cases hf
        · split at hf
          · cases hf
          · split at hf
            · cases hf
              simpa using ha
            · split at hf
              · cases hf
              · cases hf
                obtain ⟨⟨n, b⟩, hq, rfl⟩ := List.mem_map.1 ha
                exact (List.of_mem_zip hq).2
      · exact ih (k + 1) (fun c hc => h c (by simp [hc])) f' hf'

/-- all bands of an exported raster have the same shape -/
theorem export_shape {τ : Type} [LayerLike τ] [LayerNames τ] (env : Env) (g : Grid τ) (kind : RasterKind) (zUp : Bool) (res override : Option ℚ) :
    ∀ f ∈ (g.exportRaster env kind zUp res override).2.1, OneShape (f.bands.map Prod.snd) := by
  have loop : ∀ epsg layers names up rs (g : Grid τ) fs, (∀ f ∈ fs, OneShape (f.bands.map Prod.snd)) →
      ∀ f ∈ (Grid.rasterLoop env epsg layers names up override rs g fs).2.1, OneShape (f.bands.map Prod.snd) := by
    intro epsg layers names up rs
    induction rs with
    | nil => intro g fs hfs; exact hfs
    | cons r rs ih =>
      intro g fs hfs
      have hw := writeRasters_shape (epsg := epsg) (res := r) (names := names) (g.getChunks env r layers (some 1000000) up override true).st.2 1 (chunks_shape env g r layers _ up override)
      have hall : ∀ f ∈ fs ++ (writeRasters epsg r names 1 (g.getChunks env r layers (some 1000000) up override true).st.2).1, OneShape (f.bands.map Prod.snd) := by
        intro f hf
        rcases List.mem_append.1 hf with hf | hf
        · exact hfs f hf
        · exact hw f hf
      unfold Grid.rasterLoop
      simp only
      split
      · exact hall
      · split
        · exact hall
        · exact ih _ _ hall
  unfold Grid.exportRaster
  simp only
  split
  · intro f hf; cases hf
  · exact loop _ _ _ _ _ _ _ (by simp)

end Bathy
