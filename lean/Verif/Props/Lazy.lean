import Verif.Lemmas.Lazy
import Verif.Lemmas.GridRun
import Verif.Spec.DemoGrid

/-!
# Arrays on disk (C105)

The storage model (`Model/Storage.lean`) reads an array when it is loaded.  In the code a loaded array is a link to a file, which is read when it is used, and
the file is removed before it is written again.  Here is the model with links (`Model/Lazy.lean`), and the proof that it makes no difference:
`LazyRun s e` says that the same calls lead to `s` with links and to `e` without.
-/

namespace Bathy
open LTile

/-- **C105** With links the files are at every moment what they are without, and all arrays of the tile, if they are read now, are those of the tile without links. -/
theorem C105_links {env : Env} {b : Backend} {s : Option LTile × Tile.TileDisk} {e : Option Tile × Tile.TileDisk} (h : LazyRun env b s e) :
    s.2 = e.2 ∧ SeesOpt (s.2.now.getD {}) s.1 e.1 := by
  suffices s.2 = e.2 ∧ LinkedOpt (s.2.now.getD {}) s.1 e.1 by
    refine ⟨this.1, ?_⟩
    have h := this.2
    cases hs : s.1 with
    | none =>
      rw [hs] at h
      cases he : e.1 with
      | none => exact trivial
      | some u =>
        rw [he] at h
        exact h
    | some t =>
      rw [hs] at h
      cases he : e.1 with
      | none =>
        rw [he] at h
        exact h
      | some u =>
        rw [he] at h
        exact ⟨h.sees, h.data, h.grid, h.keys⟩
  induction h with
  | none d => exact ⟨rfl, trivial⟩
  | build h x y size bs ih => exact ⟨ih.1, linked_new _ x y size bs⟩
  | @add t t' t'' u d e h p c hm hs hc hk hr he ih =>
    obtain ⟨rfl, il⟩ := ih
    by_cases hem : (u.addPoints p c).st.isEmpty = true
    · simp only [if_pos hem] at he ⊢
      exact ⟨rfl, trivial⟩
    · simp only [if_neg hem] at he ⊢
      exact (flush_linked b .points ⟨hs, (fun h => by cases h), hc.own (toMemory_all il hm).2, hk, hr⟩).2
  | @remove t t' u d e h c hs hc hk hr he ih =>
    obtain ⟨rfl, il⟩ := ih
    by_cases hem : (u.removePoints c).st.isEmpty = true
    · simp only [if_pos hem] at he ⊢
      exact ⟨rfl, trivial⟩
    · simp only [if_neg hem] at he ⊢
      exact (flush_linked b .points ⟨hs, (fun h => by cases h), hc.own il.grid, hk, hr⟩).2
  | @grid t t' u d e h alg res clear mode params border hs hd hc hk hr he ih =>
    obtain ⟨rfl, il⟩ := ih
    exact (flush_linked b .grid ⟨hs, (fun _ => il.data.of_eq hd), hc.own il.grid, hk, hr⟩).2
  | @gridWorker t t' t'' u d e h alg res clear mode params border hm hs hd hc hk hr he ih =>
    obtain ⟨rfl, il⟩ := ih
    exact (flush_linked b .grid ⟨hs, (fun _ => (toMemory_all il hm).1.of_eq hd), hc.own (toMemory_all il hm).2, hk, hr⟩).2
  | @query t t' u d e h layer res nodata up hs hd hc hk hr ih =>
    obtain ⟨rfl, il⟩ := ih
    exact ⟨rfl, hs, il.data.of_eq hd, hc.own il.grid, hk, hr⟩
  | @save t u d e h d' he ih =>
    obtain ⟨rfl, il⟩ := ih
    obtain ⟨t', f, e1, e2, e3, e4⟩ := saveTile_linked b .all (t := t) (u := u) (d := d') il.weaken (fun h => absurd rfl h)
    rw [e1]
    refine ⟨rfl, ?_⟩
    show LinkedOpt ((Tile.saveTile b (some u) .all d').st.now.getD {}) (some t') (some u)
    rw [e3]
    exact e4
  | @load d t u ht hu =>
    have := loadTile_linked .all (t := none) (u := none) (f := d.now) (fun _ _ => trivial)
    rw [ht, hu] at this
    exact ⟨rfl, this⟩

/-- **C105** What was written is saved and loaded with links with the same exception, or none, as without; the files are the same also if there is one. -/
theorem C105_same_exceptions (b : Backend) (part : Tile.Part) {t : LTile} {u : Tile} {d : Tile.TileDisk} (hs : t.Sees (d.now.getD {}) u) (hd : t.DataOwn) (hg : t.GridOwn)
    (hk : t.Keys) (hr : u.EdgesKnown) :
    (LTile.flush b part (some t) d).err = (Tile.flush b part (some u) d).err ∧ (LTile.flush b part (some t) d).st.2 = (Tile.flush b part (some u) d).st.2 := by
  have := flush_linked b part (t := t) (u := u) (d := d) ⟨hs, (fun _ => hd), hg, hk, hr⟩
  exact ⟨this.1, this.2.1⟩

/-- **C105** `_load_tile_data_to_memory` of a tile whose files are there always returns, and the tile does not depend on the files any more, whatever happens to them. -/
theorem C105_to_memory {t : LTile} {u : Tile} {f : TileFolder} (hs : t.Sees f u) (hk : t.Keys) (hr : u.EdgesKnown) :
    ∃ t', t.toMemory .all f = .ok t' ∧ ∀ f', t'.Sees f' u := by
  obtain ⟨t', e0, ei, ed, ec, _, ee, _, ex⟩ := toMemory_spec .all hs hk (fun _ => hr)
  rw [if_neg (by decide)] at ed ec
  refine ⟨t', e0, fun f' => ⟨by rw [ei]; exact hs.info, ?_, ⟨?_, (fun r hr => ?_), (fun r hr => ?_)⟩, ?_⟩⟩
  · unfold SeesData
    rw [ed]
    exact rel_mem f' _
  · rw [ec]
    exact memCells_sees f' _
  · rw [(ee (by decide) r hr).1]
    exact rel_mem f' _
  · rw [(ee (by decide) r hr).2]
    exact rel_mem f' _
  · rw [ex]
    exact agree_memAll f' _

/-- **C105** Without this step the soundings would be lost: whatever is in the folder, writing soundings that are still a link raises `FileNotFoundError`, and the file is gone. -/
theorem C105_needed (b : Backend) {t : LTile} (h : t.data = some (fun f => readArr f.data)) (d : Tile.TileDisk) {f : TileFolder} (hd : d.now = some f) :
    (LTile.saveData b t d).err = some .fileNotFoundError ∧ (LTile.saveData b t d).st.now = some { f with data := none } := by
  unfold LTile.saveData
  rw [h]
  have e : (Tile.inFolder d (fun f => { f with data := none })).now = some { f with data := none } := by
    show Option.map _ d.now = _
    rw [hd]
    rfl
  simp only [saveArr, e]
  exact ⟨rfl, e⟩

/-! ### the steps are there -/

namespace LTile

/-- the tile with all its arrays in memory -/
def inMemory (u : Tile) : LTile := ⟨u.toMeta, u.data.map Lz.mem, memCells u.cells, memAll u.edgesX, memAll u.edgesY, memAll u.cellIdx⟩

theorem inMemory_sees (u : Tile) (f : TileFolder) : (inMemory u).Sees f u := by
  refine ⟨rfl, rel_mem f _, ⟨memCells_sees f _, (fun r _ => ?_), (fun r _ => ?_)⟩, agree_memAll f _⟩
  · show Option.Rel _ ((memAll u.edgesX).get? r) _
    rw [get?_memAll]
    exact rel_mem f _
  · show Option.Rel _ ((memAll u.edgesY).get? r) _
    rw [get?_memAll]
    exact rel_mem f _

theorem inMemory_keeps (u : Tile) (t : LTile) : (inMemory u).Keeps t := by
  refine ⟨fun p hp q hq => .inl ?_, fun r x hx => .inl ?_, fun r x hx => .inl ?_⟩
  · obtain ⟨q', _, _, e⟩ := mem_memCells hp
    rw [e] at hq
    exact mem_memAll hq
  · have : (memAll u.edgesX).get? r = some x := hx
    rw [get?_memAll] at this
    obtain ⟨a, _, ha⟩ := Option.map_eq_some_iff.1 this
    exact ⟨a, ha.symm⟩
  · have : (memAll u.edgesY).get? r = some x := hx
    rw [get?_memAll] at this
    obtain ⟨a, _, ha⟩ := Option.map_eq_some_iff.1 this
    exact ⟨a, ha.symm⟩

theorem inMemory_keys {u : Tile} (h1 : u.cells.keys.Nodup) (h2 : ∀ p ∈ u.cells, p.2.keys.Nodup) (h3 : u.cellIdx.keys.Nodup) : (inMemory u).Keys := by
  refine ⟨?_, ?_, ?_⟩
  · show (memCells u.cells).keys.Nodup
    rw [keys_memCells]
    exact h1
  · intro p hp
    obtain ⟨q, hq, _, e⟩ := mem_memCells hp
    rw [e, keys_memAll]
    exact h2 q hq
  · show (memAll u.cellIdx).keys.Nodup
    rw [keys_memAll]
    exact h3

end LTile

/-- the dictionaries of the tile have every key once, the gridded resolutions have edges -/
structure Tile.Tidy (u : Tile) : Prop where
  cells : u.cells.keys.Nodup
  layers : ∀ p ∈ u.cells, p.2.keys.Nodup
  idx : u.cellIdx.keys.Nodup
  edges : u.EdgesKnown

theorem flush_err {b : Backend} {part : Tile.Part} {t : LTile} {u : Tile} {d : Tile.TileDisk} (h : Linked' (part = .grid) (d.now.getD {}) t u) (he : (Tile.flush b part (some u) d).err = none) :
    (LTile.flush b part (some t) d).err = none := by
  rw [(flush_linked b part h).1]
  exact he

/-- **C105** For every call of `add_points` without links that returns there is one with links. -/
theorem C105_add {env : Env} {b : Backend} {t : LTile} {u : Tile} {d : Tile.TileDisk} (h : LazyRun env b (some t, d) (some u, d)) (hu : u.EdgesKnown) (p : PtArr) (c : String)
    (hr : (u.addPoints p c).st.Tidy) (hn : (u.addPoints p c).st.isEmpty = false) (he : (Tile.flush b .points (some (u.addPoints p c).st) d).err = none) :
    ∃ s, LazyRun env b s (Tile.flush b .points (some (u.addPoints p c).st) d).st := by
  obtain ⟨-, hs, hd, hg, hk⟩ := C105_links h
  obtain ⟨t', e0, -⟩ := C105_to_memory hs hk hu
  have hi := inMemory_sees (u.addPoints p c).st (d.now.getD {})
  have ho := (inMemory_keeps (u.addPoints p c).st t).own hg
  have hk' := inMemory_keys hr.cells hr.layers hr.idx
  have := LazyRun.add (b := b) h p c e0 hi (inMemory_keeps _ t') hk' hr.edges
    (by rw [hn]; exact flush_err ⟨hi, (fun h => by cases h), ho, hk', hr.edges⟩ he)
  rw [hn] at this
  exact ⟨_, this⟩

/-- **C105** For every call of `grid` without links that returns there is one with links. -/
theorem C105_grid {env : Env} {b : Backend} {t : LTile} {u : Tile} {d : Tile.TileDisk} (h : LazyRun env b (some t, d) (some u, d)) (alg : Alg) (res : Option ℚ) (clear : Bool)
    (mode : AutoMode) (params : Option GridParams) (border : Option PtArr)
    (hr : (u.grid env alg res clear mode params border).1.st.Tidy) (he : (Tile.flush b .grid (some (u.grid env alg res clear mode params border).1.st) d).err = none) :
    ∃ s, LazyRun env b s (Tile.flush b .grid (some (u.grid env alg res clear mode params border).1.st) d).st := by
  obtain ⟨-, hs, hd, hg, hk⟩ := C105_links h
  have hsame : (u.grid env alg res clear mode params border).1.st.data = u.data := (Tile.grid_samePts env u alg res clear mode params border).1
  generalize hv : (u.grid env alg res clear mode params border).1.st = v at *
  have hi := inMemory_sees v (d.now.getD {})
  have hk' := inMemory_keys hr.cells hr.layers hr.idx
  have hkeep := inMemory_keeps v t
  have hsees : ({ inMemory v with data := t.data } : LTile).Sees (d.now.getD {}) v := by
    refine ⟨rfl, ?_, ⟨hi.grid.cells, hi.grid.edgesX, hi.grid.edgesY⟩, hi.idx⟩
    unfold SeesData
    rw [hsame]
    exact hs.data
  have hkeep' : ({ inMemory v with data := t.data } : LTile).Keeps t := ⟨hkeep.cells, hkeep.edgesX, hkeep.edgesY⟩
  have hkk : ({ inMemory v with data := t.data } : LTile).Keys := ⟨hk'.cells, hk'.layers, hk'.idx⟩
  have := LazyRun.grid (b := b) (t' := { inMemory v with data := t.data }) h alg res clear mode params border (by rw [hv]; exact hsees) rfl hkeep' hkk (by rw [hv]; exact hr.edges)
    (flush_err ⟨hsees, (fun _ => hd.of_eq rfl), hkeep'.own hg, hkk, hr.edges⟩ he)
  rw [hv] at this
  exact ⟨_, this⟩

/-- a tile after `add_points` and `grid` -/
def lazyA : Tile := (Tile.new 0 0 16 false |>.addPoints ⟨demoFields, demoB.take 1 ++ demoA.take 1⟩ "a").st
def lazyDisk (b : Backend) : Option Tile × Tile.TileDisk := (Tile.flush b .points (some lazyA) ⟨none, []⟩).st
def lazyB (b : Backend) : Option Tile × Tile.TileDisk :=
  (Tile.flush b .grid (some ((((lazyDisk b).1.getD (Tile.new 0 0 16 false)).grid demoEnv .mean (some 8) true .density none none).1.st)) (lazyDisk b).2).st

instance (u : Tile) : Decidable u.EdgesKnown := by
  unfold Tile.EdgesKnown
  infer_instance

instance (u : Tile) : Decidable u.Tidy :=
  decidable_of_iff (u.cells.keys.Nodup ∧ (∀ p ∈ u.cells, p.2.keys.Nodup) ∧ u.cellIdx.keys.Nodup ∧ u.EdgesKnown)
    ⟨fun ⟨a, b, c, d⟩ => ⟨a, b, c, d⟩, fun h => ⟨h.cells, h.layers, h.idx, h.edges⟩⟩

/-- such a run: `add_points`, then `grid`, with both backends -/
example (b : Backend) : ∃ s, LazyRun demoEnv b s (lazyB b) := by
  have h0 : LazyRun demoEnv b (some (LTile.new 0 0 16 false), ⟨none, []⟩) (some (Tile.new 0 0 16 false), ⟨none, []⟩) := .build (.none ⟨none, []⟩) 0 0 16 false
  obtain ⟨s1, h1⟩ := C105_add h0 (by decide +kernel) ⟨demoFields, demoB.take 1 ++ demoA.take 1⟩ "a" (by decide +kernel) (by decide +kernel) (by cases b <;> decide +kernel)
  obtain ⟨e1, hs⟩ := C105_links h1
  have hn : (lazyDisk b).1.isSome = true := by cases b <;> decide +kernel
  obtain ⟨u, hu⟩ := Option.isSome_iff_exists.1 hn
  have hl : (Tile.flush b .points (some lazyA) ⟨none, []⟩).st = (some u, (lazyDisk b).2) := Prod.ext hu rfl
  rw [show ((Tile.new 0 0 16 false).addPoints ⟨demoFields, demoB.take 1 ++ demoA.take 1⟩ "a").st = lazyA from rfl, hl] at h1 e1 hs
  obtain ⟨t, ht⟩ : ∃ t, s1.1 = some t := by
    cases h : s1.1 with
    | none =>
      rw [h] at hs
      exact False.elim hs
    | some t => exact ⟨t, rfl⟩
  have h2 : LazyRun demoEnv b (some t, (lazyDisk b).2) (some u, (lazyDisk b).2) := by
    have e : s1 = (some t, (lazyDisk b).2) := Prod.ext ht e1
    rw [← e]
    exact h1
  have eu : (lazyDisk b).1.getD (Tile.new 0 0 16 false) = u := by rw [hu]; rfl
  have := C105_grid h2 .mean (some 8) true .density none none (by rw [← eu]; cases b <;> decide +kernel)
    (by rw [← eu]; cases b <;> decide +kernel)
  rw [← eu] at this
  exact this

/-- it has four layers and two soundings -/
example : ((lazyB .zarr).1.map (fun u => (u.cells.map (fun p => (p.1, p.2.length)), u.data.map (fun a => a.pts.length)))) = some ([(8, 4)], some 2) := by decide +kernel

/-- the tile of this run, when its folder is loaded: all the arrays are links -/
example (b : Backend) : ∃ t u, LazyRun demoEnv b (t, (lazyB b).2) (u, (lazyB b).2) ∧ u.isSome = true := by
  have h : Both (LinkedOpt _) _ _ := loadTile_linked .all (t := none) (u := none) (f := (lazyB b).2.now) (fun _ _ => trivial)
  have hu : ((Tile.loadTile none .all (lazyB b).2.now).map Option.isSome) = .ok true := by cases b <;> decide +kernel
  cases ha : LTile.loadTile none .all (lazyB b).2.now with
  | error x =>
    cases hc : Tile.loadTile none .all (lazyB b).2.now with
    | error y =>
      rw [hc] at hu
      cases hu
    | ok y =>
      rw [ha, hc] at h
      exact False.elim h
  | ok x =>
    cases hc : Tile.loadTile none .all (lazyB b).2.now with
    | error y =>
      rw [hc] at hu
      cases hu
    | ok y =>
      rw [hc] at hu
      exact ⟨x, y, .load _ ha hc, Except.ok.inj hu⟩

/-- soundings that are still a link -/
example : (LTile.saveData .numpy { LTile.new 0 0 16 false with data := some (fun f => readArr f.data) } (lazyDisk .numpy).2).err = some .fileNotFoundError := by
  have h : (lazyDisk .numpy).2.now.isSome = true := by decide +kernel
  obtain ⟨f, hf⟩ := Option.isSome_iff_exists.1 h
  exact (C105_needed .numpy rfl (lazyDisk .numpy).2 hf).1

end Bathy
