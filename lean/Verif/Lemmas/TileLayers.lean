import Verif.Lemmas.TileGrid

/-!
# running an algorithm on the layers of one resolution
-/

namespace Bathy

theorem Dict.keys_set_of_mem {κ ν : Type} [DecidableEq κ] (d : Dict κ ν) (k : κ) (v : ν) (h : k ∈ d.map Prod.fst) :
    (d.set k v).map Prod.fst = d.map Prod.fst := by
  induction d with
  | nil => simp at h
  | cons p d ih =>
    rw [Dict.set_cons]
    by_cases hp : p.1 = k
    · rw [if_pos hp]; simp [hp]
    · rw [if_neg hp]
      have : k ∈ d.map Prod.fst := by
        rcases List.mem_cons.1 h with e | e
        · exact absurd e.symm hp
        · exact e
      simp [ih this]

theorem Dict.mem_fst_of_get? {κ ν : Type} [DecidableEq κ] {d : Dict κ ν} {k : κ} {v : ν} (h : d.get? k = some v) :
    k ∈ d.map Prod.fst := by
  have := Dict.mem_of_get? d h
  exact List.mem_map_of_mem (f := Prod.fst) this

/-- what is known about the shape of an optional layer after gridding -/
def OptShape (rows cols : Nat) (g out : Option LayerArr) : Prop :=
  match g, out with
  | none, none => True
  | some a, some o => HasShape a rows cols → HasShape o rows cols
  | _, _ => False

theorem scatter_hasShape {a : LayerArr} {rows cols : Nat} (h : HasShape a rows cols) (rc : List (Nat × Nat)) (vs : List (Option ℚ)) :
    HasShape (scatter a rc vs) rows cols := by
  have := scatter_shape a rc vs
  exact ⟨this.2.2 h.1, this.1.trans h.2.1, this.2.1.trans h.2.2⟩

theorem optShape_aux {rows cols : Nat} {g out : Option LayerArr} {o : Option (List ℚ)} {b : Bool} {rc : List (Nat × Nat)}
    (h : (if b then o.map (fun m => g.map (fun a => scatter a rc (m.map some))) else some g) = some out) :
    OptShape rows cols g out := by
  cases b with
  | false =>
    simp only [Bool.false_eq_true, if_false, Option.some.injEq] at h
    subst h
    cases g with
    | none => trivial
    | some a => exact id
  | true =>
    simp only [if_true, Option.map_eq_some_iff] at h
    obtain ⟨m, -, rfl⟩ := h
    cases g with
    | none => trivial
    | some a => exact fun h => scatter_hasShape h _ _

/-- the gridding function keeps the shape of the arrays -/
def KeepsShape (f : List ℚ → List Int → GridArrays → List ℚ → List ℚ → Except Err GridArrays) : Prop :=
  ∀ depth cells g tvu thu out rows cols, f depth cells g tvu thu = .ok out →
    (HasShape g.depth rows cols → HasShape out.depth rows cols) ∧ (HasShape g.density rows cols → HasShape out.density rows cols) ∧
    OptShape rows cols g.tvu out.tvu ∧ OptShape rows cols g.thu out.thu

theorem npGridMean_keepsShape (env : Env) : KeepsShape (npGridMean env) := by
  intro depth cells g tvu thu out rows cols h
  unfold npGridMean at h
  simp only at h
  split at h
  · cases h
  · split at h
    · cases h
    · split at h
      · cases h
      · split at h
        · rename_i h1 h2
          cases h
          exact ⟨fun h => scatter_hasShape h _ _, fun h => scatter_hasShape h _ _, optShape_aux h1, optShape_aux h2⟩
        · cases h

theorem npGridShoalest_keepsShape (env : Env) : KeepsShape (npGridShoalest env) := by
  intro depth cells g tvu thu out rows cols h
  unfold npGridShoalest at h
  simp only at h
  split at h
  · cases h
  · split at h
    · cases h
    · split at h
      · cases h
      · split at h
        · cases h
        · split at h
          · rename_i h1 h2
            cases h
            exact ⟨fun h => scatter_hasShape h _ _, fun h => scatter_hasShape h _ _, optShape_aux h1, optShape_aux h2⟩
          · cases h

theorem map_hasShape {a : LayerArr} {rows cols : Nat} (h : HasShape a rows cols) (f : Option ℚ → Option ℚ) :
    HasShape (a.map f) rows cols := ⟨Arr2.map_wf h.1 f, h.2.1, h.2.2⟩

namespace Tile

theorem roundLayer_shape {a : LayerArr} {rows cols : Nat} (h : HasShape a rows cols) : HasShape (roundLayer a) rows cols :=
  map_hasShape h _

theorem layersOk_set {dk : Layer} {fl : Fields} {F : Family} {n : Nat} {ls : Dict Layer LayerArr} (h : LayersOk dk fl F n ls)
    {l : Layer} (hl : l.isCore = true) (hmem : l ∈ ls.map Prod.fst) {a : LayerArr} (ha : HasShape a n n) :
    LayersOk dk fl F n (ls.set l a) := by
  have hm : l ∈ (core ls).map Prod.fst := by
    obtain ⟨p, hp, rfl⟩ := List.mem_map.1 hmem
    exact List.mem_map_of_mem (List.mem_filter.2 ⟨hp, hl⟩)
  refine ⟨?_, ?_⟩
  · rw [core_set ls hl, Dict.keys_set_of_mem _ _ _ hm, h.1]
  · rw [core_set ls hl]
    intro p hp
    rcases Dict.mem_set hp with rfl | hp
    · exact ha
    · exact h.2 p hp

theorem layersOk_get {dk : Layer} {fl : Fields} {F : Family} {n : Nat} {ls : Dict Layer LayerArr} (h : LayersOk dk fl F n ls)
    {l : Layer} (hl : l.isCore = true) {a : LayerArr} (ha : ls.get? l = some a) : HasShape a n n := by
  rw [← core_get? ls hl] at ha
  exact h.2 _ (Dict.mem_of_get? _ ha)

theorem core_match_set (o : Option LayerArr) (ls ls' : Dict Layer LayerArr) {l : Layer} (hl : l.isCore = true) (f : LayerArr → LayerArr)
    (h : core ls = ls') :
    core (match o with | some a => ls.set l (f a) | none => ls) = (match o with | some a => ls'.set l (f a) | none => ls') := by
  cases o with
  | none => exact h
  | some a => simp only; rw [core_set ls hl, h]

theorem setOpt_ok {dk : Layer} {fl : Fields} {F : Family} {n : Nat} {ls : Dict Layer LayerArr} {o : Option LayerArr}
    {f : LayerArr → LayerArr} (h : LayersOk dk fl F n ls) {l : Layer} (hl : l.isCore = true) :
    (∀ a, o = some a → l ∈ ls.map Prod.fst) → (∀ a, o = some a → HasShape (f a) n n) →
    (match o with | some a => ls.set l (f a) | none => ls).map Prod.fst = ls.map Prod.fst ∧
    LayersOk dk fl F n (match o with | some a => ls.set l (f a) | none => ls) := by
  intro hm hs
  cases o with
  | none => exact ⟨rfl, h⟩
  | some a => exact ⟨Dict.keys_set_of_mem _ _ _ (hm a rfl), layersOk_set h hl (hm a rfl) (hs a rfl)⟩

/-- gridding only depends on the gridded layers, not on cached query results -/
theorem plainLayers_core {f : List ℚ → List Int → GridArrays → List ℚ → List ℚ → Except Err GridArrays} {dk : Layer}
    (hdk : dk.isCore = true) (d : PtArr) (cidx : List Int) (ls : Dict Layer LayerArr) :
    (plainLayers f dk d cidx ls).map core = plainLayers f dk d cidx (core ls) := by
  unfold plainLayers
  rw [core_get? ls hdk, core_get? ls (l := .density) rfl, core_get? ls (l := .vertical) rfl, core_get? ls (l := .horizontal) rfl]
  simp only
  generalize ((d.fields.hasTvu && (if d.fields.hasTvu = true then Dict.get? ls Layer.vertical else none).isNone) ||
    (d.fields.hasThu && (if d.fields.hasThu = true then Dict.get? ls Layer.horizontal else none).isNone)) = b
  cases b with
  | true => rfl
  | false =>
    simp only [Bool.false_eq_true, if_false]
    cases ls.get? dk with
    | none => rfl
    | some dg =>
      cases ls.get? Layer.density with
      | none => rfl
      | some ng =>
        simp only
        cases f (d.pts.map Pt.z) cidx _ _ _ with
        | error e => rfl
        | ok out =>
          simp only [Except.map, Except.ok.injEq]
          have e1 : core ((ls.set dk (roundLayer out.depth)).set Layer.density out.density) =
              ((core ls).set dk (roundLayer out.depth)).set Layer.density out.density := by
            rw [core_set _ (l := .density) rfl, core_set ls hdk]
          apply core_match_set _ _ _ (l := .horizontal) rfl
          apply core_match_set _ _ _ (l := .vertical) rfl
          exact e1

theorem plainLayers_ok {f : List ℚ → List Int → GridArrays → List ℚ → List ℚ → Except Err GridArrays} (hf : KeepsShape f)
    {dk : Layer} (hdk : dk.isCore = true) {fl : Fields} {F : Family} {n : Nat} {d : PtArr} {cidx : List Int} {ls ls' : Dict Layer LayerArr}
    (h : LayersOk dk fl F n ls) (hp : plainLayers f dk d cidx ls = .ok ls') : LayersOk dk fl F n ls' := by
  unfold plainLayers at hp
  simp only at hp
  generalize hvg : (if d.fields.hasTvu = true then Dict.get? ls Layer.vertical else none) = vg at hp
  generalize hhg : (if d.fields.hasThu = true then Dict.get? ls Layer.horizontal else none) = hg at hp
  generalize (if d.fields.hasTvu = true then d.pts.map Pt.tvu else []) = vert at hp
  generalize (if d.fields.hasThu = true then d.pts.map Pt.thu else []) = horiz at hp
  have hv : ∀ a, vg = some a → ls.get? .vertical = some a := by
    intro a ha; rw [ha] at hvg
    split at hvg
    · exact hvg
    · cases hvg
  have hh : ∀ a, hg = some a → ls.get? .horizontal = some a := by
    intro a ha; rw [ha] at hhg
    split at hhg
    · exact hhg
    · cases hhg
  clear hvg hhg
  split at hp
  · cases hp
  · split at hp
    · rename_i dg ng h1 h2
      split at hp
      · cases hp
      · rename_i out hout
        obtain ⟨s1, s2, s3, s4⟩ := hf _ _ _ _ _ _ n n hout
        cases hp
        have k1 : LayersOk dk fl F n ((ls.set dk (roundLayer out.depth)).set .density out.density) := by
          apply layersOk_set _ rfl
          · rw [Dict.keys_set_of_mem _ _ _ (Dict.mem_fst_of_get? h1)]; exact Dict.mem_fst_of_get? h2
          · exact s2 (layersOk_get h rfl h2)
          · exact layersOk_set h hdk (Dict.mem_fst_of_get? h1) (roundLayer_shape (s1 (layersOk_get h hdk h1)))
        have m1 : ∀ l, l ∈ ls.map Prod.fst → l ∈ ((ls.set dk (roundLayer out.depth)).set .density out.density).map Prod.fst := by
          intro l hl
          rw [Dict.keys_set_of_mem _ _ _ (by
            rw [Dict.keys_set_of_mem _ _ _ (Dict.mem_fst_of_get? h1)]; exact Dict.mem_fst_of_get? h2),
            Dict.keys_set_of_mem _ _ _ (Dict.mem_fst_of_get? h1)]
          exact hl
        generalize (ls.set dk (roundLayer out.depth)).set .density out.density = ls1 at k1 m1
        have hsv : ∀ o, out.tvu = some o → Layer.vertical ∈ ls1.map Prod.fst ∧ HasShape o n n := by
          intro o hot
          cases hvgc : vg with
          | none => rw [hot, hvgc] at s3; exact absurd s3 (by simp [OptShape])
          | some a =>
            rw [hot, hvgc] at s3
            exact ⟨m1 _ (Dict.mem_fst_of_get? (hv a hvgc)), s3 (layersOk_get h rfl (hv a hvgc))⟩
        have hsh : ∀ o, out.thu = some o → Layer.horizontal ∈ ls1.map Prod.fst ∧ HasShape o n n := by
          intro o hot
          cases hvgc : hg with
          | none => rw [hot, hvgc] at s4; exact absurd s4 (by simp [OptShape])
          | some a =>
            rw [hot, hvgc] at s4
            exact ⟨m1 _ (Dict.mem_fst_of_get? (hh a hvgc)), s4 (layersOk_get h rfl (hh a hvgc))⟩
        have k2 := setOpt_ok (o := out.tvu) (f := fun a => if vert.length > 0 then roundLayer a else a) k1 (l := .vertical) rfl
          (fun a ha => (hsv a ha).1) (fun a ha => by
            split
            · exact roundLayer_shape (hsv a ha).2
            · exact (hsv a ha).2)
        have k3 := setOpt_ok (o := out.thu) (f := fun a => if horiz.length > 0 then roundLayer a else a) k2.2 (l := .horizontal) rfl
          (fun a ha => by rw [k2.1]; exact (hsh a ha).1) (fun a ha => by
            split
            · exact roundLayer_shape (hsh a ha).2
            · exact (hsh a ha).2)
        exact k3.2
    · cases hp

theorem cubeMerge_shape {g : LayerArr} {n m : Nat} (h : HasShape g n m) (a b : LayerArr) : HasShape (cubeMerge g a b) n m :=
  ⟨Arr2.ofFn_wf _ _ _, h.2.1, h.2.2⟩

theorem cubeLayers_core {env : Env} {dk : Layer} (hdk : dk.isCore = true) (minX maxY : ℚ) (d : PtArr) (cidx : List Int)
    (ls : Dict Layer LayerArr) (res : ℚ) (params : Option GridParams) :
    (cubeLayers env dk minX maxY d cidx ls res params).map core = cubeLayers env dk minX maxY d cidx (core ls) res params := by
  unfold cubeLayers
  rw [core_get? ls hdk, core_get? ls (l := .density) rfl, core_get? ls (l := .totalUnc) rfl, core_get? ls (l := .hypCount) rfl,
    core_get? ls (l := .hypRatio) rfl]
  cases ls.get? dk with
  | none => rfl
  | some dg =>
    cases ls.get? Layer.density with
    | none => rfl
    | some ng =>
      cases ls.get? Layer.totalUnc with
      | none => rfl
      | some tu =>
        cases ls.get? Layer.hypCount with
        | none => rfl
        | some hc =>
          cases ls.get? Layer.hypRatio with
          | none => rfl
          | some hr =>
            simp only
            cases nbCube env _ cidx _ with
            | error e => rfl
            | ok out =>
              simp only [Except.map, Except.ok.injEq]
              rw [core_set _ (l := .hypRatio) rfl, core_set _ (l := .hypCount) rfl, core_set _ (l := .totalUnc) rfl,
                core_set _ (l := .density) rfl, core_set _ hdk]

theorem cubeLayers_ok {env : Env} {dk : Layer} (hdk : dk.isCore = true) {fl : Fields} {F : Family} {n : Nat} {minX maxY : ℚ} {d : PtArr}
    {cidx : List Int} {ls ls' : Dict Layer LayerArr} {res : ℚ} {params : Option GridParams}
    (h : LayersOk dk fl F n ls) (hp : cubeLayers env dk minX maxY d cidx ls res params = .ok ls') : LayersOk dk fl F n ls' := by
  unfold cubeLayers at hp
  split at hp
  · rename_i dg ng tu hc hr h1 h2 h3 h4 h5
    simp only at hp
    split at hp
    · cases hp
    · rename_i out hout
      cases hp
      unfold nbCube at hout
      simp only at hout
      split at hout
      · cases hout
      · split at hout
        · cases hout
        · cases hout
          simp only
          have a1 := Dict.mem_fst_of_get? h1
          have a2 := Dict.mem_fst_of_get? h2
          have a3 := Dict.mem_fst_of_get? h3
          have a4 := Dict.mem_fst_of_get? h4
          have a5 := Dict.mem_fst_of_get? h5
          have s1 := layersOk_get h hdk h1
          have s2 := layersOk_get h (l := .density) rfl h2
          have s3 := layersOk_get h (l := .totalUnc) rfl h3
          have s4 := layersOk_get h (l := .hypCount) rfl h4
          have s5 := layersOk_get h (l := .hypRatio) rfl h5
          have key : ∀ (K : List Layer) (m : Dict Layer LayerArr), K = ls.map Prod.fst → m.map Prod.fst = K → LayersOk dk fl F n m →
              ∀ l a, l.isCore = true → l ∈ K → HasShape a n n → (m.set l a).map Prod.fst = K ∧ LayersOk dk fl F n (m.set l a) := by
            intro K m _ hm hok l a hl hk ha
            exact ⟨by rw [Dict.keys_set_of_mem _ _ _ (hm ▸ hk), hm], layersOk_set hok hl (hm ▸ hk) ha⟩
          obtain ⟨e1, o1⟩ := key _ ls rfl rfl h dk _ hdk a1 (roundLayer_shape (cubeMerge_shape s1 _ _))
          obtain ⟨e2, o2⟩ := key _ _ rfl e1 o1 .density _ rfl a2 (scatter_hasShape s2 _ _)
          obtain ⟨e3, o3⟩ := key _ _ rfl e2 o2 .totalUnc _ rfl a3 (roundLayer_shape (cubeMerge_shape s3 _ _))
          obtain ⟨e4, o4⟩ := key _ _ rfl e3 o3 .hypCount _ rfl a4 (cubeMerge_shape s4 _ _)
          exact (key _ _ rfl e4 o4 .hypRatio _ rfl a5 (roundLayer_shape (cubeMerge_shape s5 _ _))).2
  · cases hp

/-- the layers after running an algorithm, as a function of soundings, cell indices and layers before -/
def algLayers (env : Env) (dk : Layer) (minX maxY : ℚ) (d : PtArr) (cidx : List Int) (ls : Dict Layer LayerArr) (alg : Alg) (res : ℚ)
    (params : Option GridParams) (border : Option PtArr) : Except Err (Dict Layer LayerArr) :=
  match alg with
  | .mean => plainLayers (npGridMean env) dk d cidx ls
  | .shoalest => plainLayers (npGridShoalest env) dk d cidx ls
  | .cube =>
    match cubeData d border with
    | .error e => .error e
    | .ok d' =>
      if d'.fields.hasTvu && d'.fields.hasThu then cubeLayers env dk minX maxY d' cidx ls res params else .error .valueError
  | .other => .ok ls

theorem runAlg_eq {env : Env} {t : Tile} {alg : Alg} {res : ℚ} {params : Option GridParams} {border : Option PtArr} {d : PtArr}
    {ls : Dict Layer LayerArr} {cidx : List Int} (hd : t.data = some d) (hc : t.cells.get? res = some ls)
    (hi : t.cellIdx.get? res = some cidx) (ha : alg.family ≠ none) :
    runAlg env t alg res params border =
      match algLayers env t.depthKey t.minX t.maxY d cidx ls alg res params border with
      | .error e => .error e
      | .ok ls' => .ok { t with cells := t.cells.set res ls' } := by
  cases alg with
  | mean =>
    simp only [runAlg, runPlain, hd, hc, hi, algLayers]
    cases plainLayers (npGridMean env) t.depthKey d cidx ls <;> rfl
  | shoalest =>
    simp only [runAlg, runPlain, hd, hc, hi, algLayers]
    cases plainLayers (npGridShoalest env) t.depthKey d cidx ls <;> rfl
  | cube =>
    simp only [runAlg, runCube, hd, hc, hi, algLayers]
    cases cubeData d border with
    | error e => rfl
    | ok d' =>
      simp only
      split <;> rfl
  | other => exact absurd rfl ha

theorem algLayers_core {env : Env} {dk : Layer} (hdk : dk.isCore = true) (minX maxY : ℚ) (d : PtArr) (cidx : List Int)
    (ls : Dict Layer LayerArr) (alg : Alg) (res : ℚ) (params : Option GridParams) (border : Option PtArr) :
    (algLayers env dk minX maxY d cidx ls alg res params border).map core =
      algLayers env dk minX maxY d cidx (core ls) alg res params border := by
  cases alg with
  | mean => exact plainLayers_core hdk d cidx ls
  | shoalest => exact plainLayers_core hdk d cidx ls
  | cube =>
    simp only [algLayers]
    cases cubeData d border with
    | error e => rfl
    | ok d' =>
      simp only
      split
      · exact cubeLayers_core hdk _ _ _ _ _ _ _
      · rfl
  | other => rfl

theorem algLayers_ok {env : Env} {dk : Layer} (hdk : dk.isCore = true) {fl : Fields} {F : Family} {n : Nat} {minX maxY : ℚ} {d : PtArr}
    {cidx : List Int} {ls ls' : Dict Layer LayerArr} {alg : Alg} {res : ℚ} {params : Option GridParams} {border : Option PtArr}
    (h : LayersOk dk fl F n ls) (hp : algLayers env dk minX maxY d cidx ls alg res params border = .ok ls') :
    LayersOk dk fl F n ls' := by
  cases alg with
  | mean => exact plainLayers_ok (npGridMean_keepsShape env) hdk h hp
  | shoalest => exact plainLayers_ok (npGridShoalest_keepsShape env) hdk h hp
  | cube =>
    simp only [algLayers] at hp
    split at hp
    · cases hp
    · split at hp
      · exact cubeLayers_ok hdk h hp
      · cases hp
  | other => cases hp; exact h

end Tile
end Bathy
