import Verif.Props.Neighbours
import Verif.Props.TileGridding
import Verif.Props.AutoResolution

/-!
# C70: what CUBE is given and what becomes of its answer

Model: `Tile.runCube`, `nbCube` (bathygrid/tile.py:465-502, bathygrid/algorithms.py:138-213), `Grid.borderFor` (bathygrid/bgrid.py:1322-1330, 1434-1445).
Specification: `Verif/Spec/Cube.lean`, `NearBorder` (`Verif/Spec/Neighbours.lean`).
-/

namespace Bathy
open Grid

variable {env : Env} {x y size sub : ℚ} {bs : Bool} {fl : Fields} {F : Family} {s : Bool} {A : Store}

theorem merge_shows {n : Nat} {d src : LayerArr} (hd : d.rows = n) (hsr : src.rows = n) (rnd : ℚ → ℚ) (e : Option ℚ) (he : e.map rnd = e) :
    ShowsAnswer n d src rnd e ⟨n, n, (cubeMerge (Arr2.fill n n e) d src).flat.map (fun v => v.map rnd)⟩ := by
  refine ⟨by simp [cubeMerge, Arr2.fill, Arr2.ofFn], rfl, rfl, ?_⟩
  intro i i' j hi hj
  have hin : i < n := by omega
  have hget : (⟨n, n, (cubeMerge (Arr2.fill n n e) d src).flat.map (fun v => v.map rnd)⟩ : LayerArr).get? i j =
      ((cubeMerge (Arr2.fill n n e) d src).get? i j).map (fun v => v.map rnd) := by
    unfold Arr2.get?
    have h1 : (cubeMerge (Arr2.fill n n e) d src).rows = n := rfl
    have h2 : (cubeMerge (Arr2.fill n n e) d src).cols = n := rfl
    rw [h1, h2]
    simp only [hin, hj, and_self, if_true, List.getElem?_map]
  have hm : (cubeMerge (Arr2.fill n n e) d src).get? i j = some (match d.get? (d.rows - 1 - i) j with
      | some (some _) => (src.get? (src.rows - 1 - i) j).join
      | _ => ((Arr2.fill n n e).get? i j).join) := Arr2.get?_ofFn _ hin hj
  have hf : (Arr2.fill n n e).get? i j = some e := by
    unfold Arr2.get? Arr2.fill
    simp only [hin, hj, and_self, if_true]
    rw [List.getElem?_replicate, if_pos]
    calc i * n + j < i * n + n := by omega
      _ = (i + 1) * n := by ring
      _ ≤ n * n := Nat.mul_le_mul_right _ (by omega)
  have e1 : d.rows - 1 - i = i' := by omega
  have e2 : src.rows - 1 - i = i' := by omega
  rw [hget, hm, e1, e2, hf]
  constructor
  · intro h; rw [h]; simp [he]
  · intro z v h1 h2; rw [h1, h2]; rfl

theorem getD_setting {o : Option String} {dflt m : String} (h : o = some m ∨ (m = dflt ∧ o = none)) : o.getD dflt = m := by
  rcases h with rfl | ⟨rfl, rfl⟩ <;> rfl

theorem setting {params : Option GridParams} {f : GridParams → Option String} {dflt m : String}
    (h : (∃ p, params = some p ∧ f p = some m) ∨ (m = dflt ∧ ∀ p, params = some p → f p = none)) : (params.bind f).getD dflt = m := by
  apply getD_setting
  rcases h with ⟨p, rfl, h⟩ | ⟨h1, h2⟩
  · left; exact h
  · right
    refine ⟨h1, ?_⟩
    cases params with
    | none => rfl
    | some p => exact h2 p rfl

/-- **C70** (a tile): a CUBE call that returns has run the package on the soundings of the tile followed by those of the border, with the settings of the call; the layers
show the answer, depth, uncertainty and ratio rounded to 3 decimals. -/
theorem C70_cube_tile (hcs : CubeShapes env) (hw : 0 < size) {t : Tile} (h : TileHistory env x y size bs fl F t A) {res : ℚ} {clear : Bool} (hF : F = .cube ∨ clear = true)
    {mode : AutoMode} {params : Option GridParams} {border : Option PtArr} (hok : (t.grid env .cube (some res) clear mode params border).1.err = none) :
    fl.hasTvu = true ∧ fl.hasThu = true ∧ (∀ b, border = some b → b.fields = fl) ∧ ∃ args, CubeInput args (A.allPts ++ answerPts border) x y size res params ∧
      ∀ l src rnd e, (l, src, rnd, e) ∈ [(mainLayer bs, (env.cube args).depth, round3, none), (.totalUnc, (env.cube args).unc, round3, none),
          (.hypRatio, (env.cube args).ratio, round3, none), (.hypCount, (env.cube args).numhyp, id, some (0 : ℚ))] →
        ∃ a, (t.grid env .cube (some res) clear mode params border).1.st.layerAt res l = some a ∧ ShowsAnswer ⌈size / res⌉.toNat (env.cube args).depth src rnd e a := by
  have hres : isPowerOfTwo res = true := by
    by_contra hn
    have hn : isPowerOfTwo res = false := by simpa using hn
    rw [(grid_some env t .cube res clear mode params border).1, Tile.gridAt_bad env t .cube hn] at hok
    cases hok
  obtain ⟨L, ls, hL, hls, hcore, -⟩ := grid_leaves hw h (alg := .cube) (F' := .cube) rfl (hF.imp Eq.symm id) hres params border hok
  have hlayer : ∀ l, l.isCore = true → (t.grid env .cube (some res) clear mode params border).1.st.layerAt res l = L.get? l := by
    intro l hl
    unfold Tile.layerAt
    rw [show (t.grid env .cube (some res) clear mode params border).1 = t.gridAt env .cube res clear params border from rfl, hls, Option.bind_some, ← hcore, core_get? ls hl]
  unfold Tile.canonLayers Tile.algLayers at hL
  simp only at hL
  split at hL
  · cases hL
  · rename_i d' hd'
    have hd : d' = ⟨fl, A.allPts ++ answerPts border⟩ ∧ ∀ b, border = some b → b.fields = fl := by
      unfold Tile.cubeData at hd'
      cases border with
      | none => cases hd'; exact ⟨by simp [answerPts], by simp⟩
      | some b =>
        simp only at hd'
        split at hd'
        · rename_i hb
          cases hd'
          exact ⟨rfl, by rintro _ ⟨⟩; exact hb⟩
        · cases hd'
    obtain ⟨rfl, hbf⟩ := hd
    split at hL
    · rename_i hfl
      simp only [Bool.and_eq_true] at hfl
      refine ⟨hfl.1, hfl.2, hbf, ?_⟩
      unfold Tile.cubeLayers at hL
      have g1 : (Tile.initLayers (mainLayer bs) fl .cube (ncells size res)).get? (mainLayer bs) = some (Arr2.fill (ncells size res) (ncells size res) none) := by
        simp [Tile.initLayers, Dict.get?]
      have g2 : (Tile.initLayers (mainLayer bs) fl .cube (ncells size res)).get? .density = some (Arr2.fill (ncells size res) (ncells size res) (some 0)) := by
        cases bs <;> simp [Tile.initLayers, Dict.get?, mainLayer]
      have g3 : (Tile.initLayers (mainLayer bs) fl .cube (ncells size res)).get? .totalUnc = some (Arr2.fill (ncells size res) (ncells size res) none) := by
        cases bs <;> simp [Tile.initLayers, Dict.get?, mainLayer]
      have g4 : (Tile.initLayers (mainLayer bs) fl .cube (ncells size res)).get? .hypCount = some (Arr2.fill (ncells size res) (ncells size res) (some 0)) := by
        cases bs <;> simp [Tile.initLayers, Dict.get?, mainLayer]
      have g5 : (Tile.initLayers (mainLayer bs) fl .cube (ncells size res)).get? .hypRatio = some (Arr2.fill (ncells size res) (ncells size res) none) := by
        cases bs <;> simp [Tile.initLayers, Dict.get?, mainLayer]
      simp only [g1, g2, g3, g4, g5] at hL
      generalize hargs : CubeArgs.mk ((A.allPts ++ answerPts border).map Pt.z) ((A.allPts ++ answerPts border).map Pt.thu) ((A.allPts ++ answerPts border).map Pt.tvu) ((A.allPts ++ answerPts border).map Pt.x) ((A.allPts ++ answerPts border).map Pt.y)
        (Arr2.fill (ncells size res) (ncells size res) (none : Option ℚ)).cols (Arr2.fill (ncells size res) (ncells size res) (none : Option ℚ)).rows
        x (y + size) (Tile.cubeMethod params) (Tile.cubeIho params) res (Tile.cubeVariance params) = args at hL
      split at hL
      · cases hL
      · rename_i out hout
        cases hL
        unfold nbCube at hout
        simp only at hout
        split at hout
        · cases hout
        · split at hout
          · cases hout
          · cases hout
            refine ⟨args, ?_, ?_⟩
            · rw [← hargs]
              exact ⟨rfl, rfl, rfl, rfl, rfl, rfl, rfl, rfl, rfl, rfl, fun m hm => setting hm, fun m hm => setting hm, fun m hm => setting hm⟩
            have hn : args.numrows = ncells size res := by rw [← hargs]; rfl
            have hshape := hcs args
            simp only [List.mem_cons, List.not_mem_nil, or_false, forall_eq_or_imp, forall_eq] at hshape
            obtain ⟨⟨-, s1, -⟩, ⟨-, s2, -⟩, ⟨-, s3, -⟩, -, s4, -⟩ := hshape
            rw [hn] at s1 s2 s3 s4
            intro l src rnd e hm
            simp only [List.mem_cons, List.not_mem_nil, or_false, Prod.mk.injEq] at hm
            have hne : ∀ l', l' ∈ [Layer.density, .totalUnc, .hypCount, .hypRatio] → mainLayer bs ≠ l' := by
              intro l' hl'; cases bs <;> simp only [mainLayer, List.mem_cons, List.not_mem_nil, or_false] at hl' ⊢ <;> rcases hl' with rfl | rfl | rfl | rfl <;> simp
            rcases hm with ⟨rfl, rfl, rfl, rfl⟩ | ⟨rfl, rfl, rfl, rfl⟩ | ⟨rfl, rfl, rfl, rfl⟩ | ⟨rfl, rfl, rfl, rfl⟩
            · refine ⟨_, (hlayer _ (mainLayer_core bs)).trans ?_, merge_shows s1 s1 round3 none rfl⟩
              rw [Dict.get?_set_ne _ _ (hne _ (by simp)), Dict.get?_set_ne _ _ (hne _ (by simp)), Dict.get?_set_ne _ _ (hne _ (by simp)), Dict.get?_set_ne _ _ (hne _ (by simp)),
                Dict.get?_set_self]
              rfl
            · refine ⟨_, (hlayer _ rfl).trans ?_, merge_shows s1 s2 round3 none rfl⟩
              rw [Dict.get?_set_ne _ _ (by simp), Dict.get?_set_ne _ _ (by simp), Dict.get?_set_self]
              rfl
            · refine ⟨_, (hlayer _ rfl).trans ?_, merge_shows s1 s3 round3 none rfl⟩
              rw [Dict.get?_set_self]
              rfl
            · refine ⟨_, (hlayer _ rfl).trans ?_, merge_shows s1 s4 id (some 0) rfl⟩
              rw [Dict.get?_set_ne _ _ (by simp), Dict.get?_set_self]
              simp [cubeMerge, Arr2.ofFn, Arr2.fill]
    · cases hL

/-- width of the strip of neighbouring soundings: a tenth of the tile; with workers and a given resolution at most three cells (finding C25) -/
def stripWidth (size : ℚ) (res : Option ℚ) (dask : Option Nat) : ℚ :=
  match dask, res with
  | some _, some r => min (size / 10) (r * 3)
  | _, _ => size / 10

/-- the border given to a tile -/
theorem borderFor_spec (hs : 0 < size) {g : Grid Tile} (h : SRHistory env size bs fl F s g A) {r c : Nat} {t : Tile} (ht : g.TileAt r c t) {limit : Option ℚ} {gb b : Option PtArr}
    (hb : g.borderFor (r * g.txs.length + c) t .cube limit gb = .ok b) :
    (answerPts b).Perm (A.allPts.filter (fun p => decide (NearBorder t.minX t.minY size (match limit with | none => size / 10 | some l => min (size / 10) l) p)) ++ answerPts gb) ∧
    (b = none ↔ gb = none ∧ ∀ p ∈ A.allPts, ¬ NearBorder t.minX t.minY size (match limit with | none => size / 10 | some l => min (size / 10) l) p) := by
  have hwid : GridLike.width t = some size := by
    have hi := (sr_inv hs h).1
    rcases hi.body with ⟨-, h2, -⟩ | ⟨hA, i, j, nx, ny, T, hf, hext⟩
    · obtain ⟨T, hT, -⟩ := ht; rw [hT] at h2; cases h2
    · obtain ⟨-, -, hrep, -⟩ := frame_tileAt hf.toReady ht
      exact congrArg some (history_frame hs hrep.1).1.2.2.2.2.1
  unfold borderFor at hb
  rw [hwid] at hb
  simp only at hb
  have key : ∀ buf, (match (generalizing := false) g.neighborPoints (r * g.txs.length + c) buf, gb with
      | .error e, _ => .error e
      | .ok b, none => .ok b
      | .ok none, some gb => .ok (some gb)
      | .ok (some b), some gb =>
        match concatPts [b, gb] with
        | .error e => .error e
        | .ok d => .ok (some d)) = (.ok b : Except Err (Option PtArr)) →
      (answerPts b).Perm (A.allPts.filter (fun p => decide (NearBorder t.minX t.minY size buf p)) ++ answerPts gb) ∧
      (b = none ↔ gb = none ∧ ∀ p ∈ A.allPts, ¬ NearBorder t.minX t.minY size buf p) := by
    intro buf hb
    obtain ⟨o, ho, hp, hn, -⟩ := C39_neighbour_soundings hs h ht buf
    rw [ho] at hb
    cases gb with
    | none =>
      cases hb
      simp only [answerPts, List.append_nil, true_and]
      exact ⟨hp, hn⟩
    | some gb =>
      cases o with
      | none =>
        cases hb
        have : A.allPts.filter (fun p => decide (NearBorder t.minX t.minY size buf p)) = [] := hp.nil_eq.symm
        rw [this]
        exact ⟨List.Perm.refl _, by simp⟩
      | some d =>
        simp only at hb
        split at hb
        · cases hb
        · rename_i e he
          simp only [concatPts] at he
          split at he
          · cases he; cases hb
            simp only [answerPts, List.map_cons, List.map_nil, List.flatten_cons, List.flatten_nil, List.append_nil] at hp ⊢
            exact ⟨hp.append_right _, by simp⟩
          · cases he
  cases limit with
  | none => exact key _ hb
  | some l => exact key _ hb

/-- **C70** (single resolution grids): a CUBE call that returns has run the package, for every tile it visits, on the soundings of the grid that lie in the square of the tile or
within the strip along its edges in the four neighbouring squares, and on the border soundings of the call, each as often as they were given; the layers of the tile show the answer. -/
theorem C70_cube_grid (hcs : CubeShapes env) (hs : 0 < size) {g : Grid Tile} (h : SRHistory env size bs fl F s g A) {a : GridCall} {dask : Option Nat} (ha : a.alg = .cube)
    (hF : F = .cube ∨ a.clear = true) (hok : (g.gridWith env a dask).err = none) {r c : Nat} {t : Tile} (ht : g.TileAt r c t)
    (hv : a.regrid = .full ∨ a.clear = true ∨ t.pointCountChanged = true) :
    ∃ u args P res, (g.gridWith env a dask).st.TileAt r c u ∧ (∀ v, a.res = some v → res = v) ∧ CubeInput args P t.minX t.minY size res a.params ∧
      P.Perm (A.allPts.filter (fun p => decide (InBox t.minX t.minY size p)) ++ A.allPts.filter (fun p => decide (NearBorder t.minX t.minY size (stripWidth size a.res dask) p)) ++
        answerPts a.border) ∧
      ∀ l src rnd e, (l, src, rnd, e) ∈ [(mainLayer bs, (env.cube args).depth, round3, none), (.totalUnc, (env.cube args).unc, round3, none),
          (.hypRatio, (env.cube args).ratio, round3, none), (.hypCount, (env.cube args).numhyp, id, some (0 : ℚ))] →
        ∃ a, u.layerAt res l = some a ∧ ShowsAnswer ⌈size / res⌉.toNat (env.cube args).depth src rnd e a := by
  have hname : g.name = "SRGrid_Root" := history_name h
  rcases gridWith_spec env g a dask with ⟨al, gr, gp, e, h', -⟩ | ⟨gr, T, hpl, -, hT, -, ⟨herr, hst⟩ | ⟨-, e, b, R, -, h'⟩⟩
  · rw [h'] at hok; cases hok
  · have hi := (sr_inv hs h).1
    rcases hi.body with ⟨-, h2, -⟩ | ⟨hA, i0, j0, nx, ny, T', hf, hext⟩
    · rw [hT] at h2; cases h2
    · obtain rfl : T = T' := by have := hf.tiles; rw [hT] at this; cases this; rfl
      obtain ⟨hr, hc, hrep, -⟩ := frame_tileAt hf.toReady ht
      have hrows : T.rows = ny := hf.rep.1
      have hcols : T.cols = nx := hf.rep.2.1
      have hl : g.txs.length = nx := by rw [hf.txs]; simp [originsOf]
      have hflat : T.flat[r * nx + c]? = some (some t) := by
        obtain ⟨T2, hT2, hg⟩ := ht
        rw [hT] at hT2; cases hT2
        unfold Arr2.get? at hg
        rw [hrows, hcols, if_pos ⟨hr, hc⟩] at hg
        exact hg
      have herr' := herr _ _ hflat
      obtain ⟨f1, -, f3, -⟩ := (history_frame hs hrep.1).1
      have f1 : t.minX = (i0 : ℚ) * size + (c : ℚ) * size := f1
      have f3 : t.minY = (j0 : ℚ) * size + (r : ℚ) * size := f3
      rw [← f1, ← f3] at hrep
      generalize hcl : clearAt a (T.flat.take (r * nx + c)) = cl at herr'
      have hskip : skips a cl t = false := by
        unfold skips
        rcases hv with hv | hv | hv
        · rw [hv]; rfl
        · have : cl = true := by rw [← hcl]; unfold clearAt; rw [hv]; rfl
          rw [this]; simp
        · have : GridLike.pointCountChanged t = true := hv
          rw [this]; simp
      have hnext : F = .cube ∨ clearNext a cl t = true := by
        refine hF.imp id (fun hac => ?_)
        have : cl = true := by rw [← hcl]; unfold clearAt; rw [hac]; rfl
        unfold clearNext; rw [this]; simp
      have hout : ∀ lim, outAt env (g.withAttrs (some a.alg) gr a.params []) a (gridPlan env g a).2 lim T (r * nx + c) (some t) =
          match g.borderFor (r * nx + c) t a.alg lim a.border with
          | .error e => (.fail (some t) e, [])
          | .ok b =>
            let o := GridLike.grid env t ((g.withAttrs (some a.alg) gr a.params []).childCall a (gridPlan env g a).2 (clearNext a cl t) b)
            (⟨some o.1.st, o.1.err⟩, o.2) := by
        intro lim
        unfold outAt outcome
        rw [hcl]
        simp only [hskip, Bool.false_eq_true, if_false]
        rfl
      rw [hout] at herr'
      cases hb : g.borderFor (r * nx + c) t a.alg (limitOf a (gridPlan env g a).2 dask) a.border with
      | error e => rw [hb] at herr'; cases herr'
      | ok b =>
        rw [hb] at herr'
        simp only at herr'
        have hcalled : Called env (fun k => k = (g.withAttrs (some a.alg) gr a.params []).childCall a (gridPlan env g a).2 (clearNext a cl t) b) t
            (GridLike.grid env t ((g.withAttrs (some a.alg) gr a.params []).childCall a (gridPlan env g a).2 (clearNext a cl t) b)).1.st
            (GridLike.grid env t ((g.withAttrs (some a.alg) gr a.params []).childCall a (gridPlan env g a).2 (clearNext a cl t) b)).2 := ⟨_, rfl, herr', rfl, rfl⟩
        obtain ⟨k, res, rfl, -, hch, hgr⟩ := called_tile hcalled
        generalize hu : (GridLike.grid env t ((g.withAttrs (some a.alg) gr a.params []).childCall a (gridPlan env g a).2 (clearNext a cl t) b)).1.st = u at hgr
        have hu' : (g.gridWith env a dask).st.TileAt r c u := by
          rw [hst]
          refine ⟨_, rfl, ?_⟩
          unfold Arr2.get?
          have e1 : (prefixTiles (outAt env (g.withAttrs (some a.alg) gr a.params []) a (gridPlan env g a).2 (limitOf a (gridPlan env g a).2 dask) T) T T.flat.length).rows = ny := hrows
          have e2 : (prefixTiles (outAt env (g.withAttrs (some a.alg) gr a.params []) a (gridPlan env g a).2 (limitOf a (gridPlan env g a).2 dask) T) T T.flat.length).cols = nx := hcols
          rw [e1, e2, if_pos ⟨hr, hc⟩, prefixTiles_get, hflat, Option.map_some, if_pos (List.getElem?_eq_some_iff.1 hflat).1, hout, hb]
          simp only
          rw [hu]
        have hg1 := hgr .depth
        have halg : ((g.withAttrs (some a.alg) gr a.params []).childCall a (gridPlan env g a).2 (clearNext a cl t) b).alg = .cube := ha
        rw [halg] at hg1
        have hg2 : t.grid env .cube (some res) (clearNext a cl t) .depth a.params b = (.ok u, some res) := hg1
        obtain ⟨-, -, -, args, hin, hshow⟩ := C70_cube_tile hcs hs hrep.1 hnext (mode := .depth) (params := a.params) (border := b) (res := res) (by rw [hg2]; rfl)
        rw [hg2] at hshow
        refine ⟨u, args, _, res, hu', ?_, hin, ?_, hshow⟩
        · intro v hv
          rcases gridPlan_spec env g a with ⟨-, -, -, -, -, hres, -, -⟩ | ⟨al, gr', gp, e, he⟩
          · have hp := hres (by rw [hv]; simp)
            unfold childCall at hch
            rw [hp, hv] at hch
            simp only [Option.isSome_none, Bool.false_and, Bool.false_eq_true, if_false] at hch
            unfold Tile.chooseResolution at hch
            cases hch; rfl
          · have := congrArg Res.err (hpl.symm.trans he); cases this
        · rw [List.append_assoc]
          refine List.Perm.append ?_ ?_
          · rw [← Store.allPts_within]
          · rw [ha, ← hl] at hb
            have := (borderFor_spec hs h ht hb).1
            have hbuf : (match limitOf a (gridPlan env g a).2 dask with | none => size / 10 | some l => min (size / 10) l) = stripWidth size a.res dask := by
              unfold stripWidth
              cases dask with
              | none => rfl
              | some n =>
                rcases gridPlan_spec env g a with ⟨-, -, -, -, hau, hres, hnone, -⟩ | ⟨al, gr', gp, e, he⟩
                · cases hra : a.res with
                  | none =>
                    have := hnone hra
                    unfold limitOf parLimit
                    rw [this, ha]
                  | some v =>
                    have := hres (by rw [hra]; simp)
                    unfold limitOf parLimit
                    rw [this, ha, hra]
                · have := congrArg Res.err (hpl.symm.trans he); cases this
            rw [hbuf] at this
            exact this
  · rw [h'] at hok; cases hok

theorem demoShapes : CubeShapes demoEnv := by
  intro args a ha
  simp only [List.mem_cons, List.not_mem_nil, or_false] at ha
  rcases ha with rfl | rfl | rfl | rfl <;> exact ⟨by simp [demoEnv, Arr2.fill], rfl, rfl⟩

/-- three tiles in a row; the last one has no soundings near its border -/
def cubeRow : Grid Tile := ((newSR 16 false).addPoints ⟨demoFields, [⟨20, 5, 1, 1, 1⟩, ⟨31, 3, 2, 1, 1⟩, ⟨40, 3, 6, 1, 1⟩, ⟨15, 3, 3, 1, 1⟩, ⟨60, 3, 4, 1, 1⟩]⟩ "a" {}).st

def cubeRowCall : GridCall := { alg := .cube, res := some 1, border := some ⟨demoFields, [⟨100, 100, 8, 1, 1⟩]⟩ }

/-- the hypotheses of `C70_cube_grid` are met by a grid with neighbouring soundings near the border (the second tile), none near (the fourth), and a border given with the call.
In the demonstration CUBE answers with the mean of the depths it was given. -/
example : CubeShapes demoEnv ∧ (∃ A, SRHistory demoEnv 16 false demoFields .cube false cubeRow A) ∧ (cubeRow.gridWith demoEnv cubeRowCall none).err = none ∧
    (cubeRow.gridWith demoEnv cubeRowCall (some 2)).err = none ∧ (∃ t, cubeRow.TileAt 0 3 t) ∧
    (∃ u, (cubeRow.gridWith demoEnv cubeRowCall none).st.TileAt 0 1 u ∧ (u.layerAt 1 .depth).bind (fun a => a.get? 3 15) = some (some (7/2))) ∧
    (∃ u, (cubeRow.gridWith demoEnv cubeRowCall none).st.TileAt 0 3 u ∧ (u.layerAt 1 .depth).bind (fun a => a.get? 3 12) = some (some 6)) := by
  refine ⟨demoShapes, ⟨_, (GridHistory.new .cube).add _ "a" {} (by decide +kernel)⟩, by decide +kernel, by decide +kernel, ?_, ?_, ?_⟩
  · obtain ⟨t, ht, -⟩ := exists_tileAt_any (g := cubeRow) (r := 0) (c := 3) (fun _ : Tile => true) (by decide +kernel)
    exact ⟨t, ht⟩
  · obtain ⟨t, ht, hP⟩ := exists_tileAt_any (g := (cubeRow.gridWith demoEnv cubeRowCall none).st) (r := 0) (c := 1)
      (fun u => decide ((u.layerAt 1 .depth).bind (fun a => a.get? 3 15) = some (some (7/2)))) (by decide +kernel)
    exact ⟨t, ht, of_decide_eq_true hP⟩
  · obtain ⟨t, ht, hP⟩ := exists_tileAt_any (g := (cubeRow.gridWith demoEnv cubeRowCall none).st) (r := 0) (c := 3)
      (fun u => decide ((u.layerAt 1 .depth).bind (fun a => a.get? 3 12) = some (some 6))) (by decide +kernel)
    exact ⟨t, ht, of_decide_eq_true hP⟩

end Bathy
