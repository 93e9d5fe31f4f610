import Verif.Props.Folders

/-!
# C91: the folder of a new grid

Model: `createGrid` (bathygrid/convenience.py:38-53, 133-148).  A new grid writes nothing before points are added, so that its folder stays empty until then.
-/

namespace Bathy

variable {gridType gridBackend tstmp : String} {tileSize subtileSize : ℚ}

/-- options that `create_grid` accepts -/
def GoodOptions (gridType gridBackend : String) (tileSize subtileSize : ℚ) : Prop := ∃ c, createClass gridType gridBackend tileSize subtileSize = .ok c

/-- **C91** : a grid that is created has a folder that was absent or empty, made next to everything else, which stays as it is. -/
theorem C91_created (d : Dict String Entry) (name : String) (hn : name ≠ "") {c : GridClass} {o : Option String}
    (h : (createGrid d (some name) tstmp gridType gridBackend tileSize subtileSize).2 = .ok (c, o)) :
    ∃ n, o = some n ∧ FreeAt d n ∧ (createGrid d (some name) tstmp gridType gridBackend tileSize subtileSize).1.get? n = some (.dir []) ∧
      (∀ other, other ≠ n → (createGrid d (some name) tstmp gridType gridBackend tileSize subtileSize).1.get? other = d.get? other) ∧
      createClass gridType gridBackend tileSize subtileSize = .ok c := by
  unfold createGrid at h ⊢
  simp only at h ⊢
  cases hf : (createFolder d name tstmp).2 with
  | error e => rw [hf] at h; cases h
  | ok n =>
    rw [hf] at h
    cases hc : createClass gridType gridBackend tileSize subtileSize with
    | error e => rw [hc] at h; cases h
    | ok k =>
      rw [hc] at h
      cases h
      obtain ⟨h1, h2, h3, -⟩ := C61_create_folder d name tstmp n hn hf
      exact ⟨n, rfl, h1, h2, h3, rfl⟩

/-- **C91, what is true of it**: a call that raises changes nothing if no folder is asked for, if there is an empty folder under the name, or if the folder cannot be made. -/
theorem C91_raises_partial (d : Dict String Entry) (folder : Option String) {e : Err} (h : (createGrid d folder tstmp gridType gridBackend tileSize subtileSize).2 = .error e)
    (hf : ∀ name ∈ folder, name ≠ "" ∧ (d.get? name = some (.dir []) ∨ ∃ e', (createFolder d name tstmp).2 = .error e')) :
    (createGrid d folder tstmp gridType gridBackend tileSize subtileSize).1 = d := by
  have hd : ∀ name ∈ folder, (createFolder d name tstmp).1 = d := by
    intro name hm
    obtain ⟨h0, h1 | ⟨e', h1⟩⟩ := hf name hm
    · have hl : Folder.look d name = some (.dir []) := by unfold Folder.look; rw [if_neg h0, h1]
      unfold createFolder Folder.mkdir
      simp only [hl]
      rfl
    · exact (C61_raises d name tstmp h0 h1).1
  unfold createGrid
  cases folder with
  | none => cases createClass gridType gridBackend tileSize subtileSize <;> rfl
  | some name =>
    have hd := hd name rfl
    simp only
    cases (createFolder d name tstmp).2 with
    | error e => exact hd
    | ok n => cases createClass gridType gridBackend tileSize subtileSize <;> exact hd

theorem createFolder_new {d : Dict String Entry} {name : String} (hn : name ≠ "") (hd : d.get? name = none) : createFolder d name tstmp = (d.set name (.dir []), .ok name) := by
  have hl : Folder.look d name = none := by unfold Folder.look; rw [if_neg hn, hd]
  unfold createFolder Folder.mkdir
  simp only [hl]
  rfl

theorem createFolder_empty {d : Dict String Entry} {name : String} (hn : name ≠ "") (hd : d.get? name = some (.dir [])) : createFolder d name tstmp = (d, .ok name) := by
  have hl : Folder.look d name = some (.dir []) := by unfold Folder.look; rw [if_neg hn, hd]
  unfold createFolder Folder.mkdir
  simp only [hl]
  rfl

/-- **C91, what the code does instead**: options that are refused leave a new empty folder behind, under every name that was free. -/
theorem C91_left_behind (d : Dict String Entry) (name : String) (hn : name ≠ "") (hd : d.get? name = none) (ho : ¬ GoodOptions gridType gridBackend tileSize subtileSize) :
    (∃ e, (createGrid d (some name) tstmp gridType gridBackend tileSize subtileSize).2 = .error e) ∧
    (createGrid d (some name) tstmp gridType gridBackend tileSize subtileSize).1.get? name = some (.dir []) := by
  unfold createGrid
  simp only [createFolder_new hn hd]
  cases hc : createClass gridType gridBackend tileSize subtileSize with
  | error e => exact ⟨⟨e, rfl⟩, Dict.get?_set_self ..⟩
  | ok c => exact absurd ⟨c, hc⟩ ho

/-- **C91, what the code does instead**: two grids created one after the other with one free folder, at any times, have the same folder, whatever their types are. -/
theorem C91_shared (d : Dict String Entry) (name : String) (hn : name ≠ "") (hd : d.get? name = none) {type' backend' tstmp' : String} {tile' sub' : ℚ}
    (ho : GoodOptions gridType gridBackend tileSize subtileSize) (ho' : GoodOptions type' backend' tile' sub') :
    ∃ c c', (createGrid d (some name) tstmp gridType gridBackend tileSize subtileSize).2 = .ok (c, some name) ∧
      (createGrid (createGrid d (some name) tstmp gridType gridBackend tileSize subtileSize).1 (some name) tstmp' type' backend' tile' sub').2 = .ok (c', some name) := by
  obtain ⟨c, hc⟩ := ho
  obtain ⟨c', hc'⟩ := ho'
  refine ⟨c, c', ?_, ?_⟩
  · unfold createGrid
    simp only [createFolder_new hn hd, hc]
  · have : (createGrid d (some name) tstmp gridType gridBackend tileSize subtileSize).1 = d.set name (.dir []) := by
      unfold createGrid
      simp only [createFolder_new hn hd, hc]
    rw [this]
    unfold createGrid
    simp only [createFolder_empty hn (Dict.get?_set_self ..), hc']

/-- **C91, what the code does instead**: with a slash at the end of the path of a folder that has entries, the folder of the new grid is made inside that folder, not next to it. -/
theorem C91_inside (d : Dict String Entry) (hd : d.keys ≠ []) (hfree : d.get? ("_" ++ tstmp) = none) (ho : GoodOptions gridType gridBackend tileSize subtileSize) :
    ∃ c, (createGrid d (some "") tstmp gridType gridBackend tileSize subtileSize).2 = .ok (c, some ("_" ++ tstmp)) ∧
      (createGrid d (some "") tstmp gridType gridBackend tileSize subtileSize).1 = d.set ("_" ++ tstmp) (.dir []) := by
  obtain ⟨c, hc⟩ := ho
  have hl : Folder.look d "" = some (.dir d.keys) := by unfold Folder.look; rw [if_pos rfl]
  have hne : "_" ++ tstmp ≠ "" := by
    intro h0
    have := congrArg String.length h0
    simp [String.length_append] at this
  have hl2 : Folder.look d ("_" ++ tstmp) = none := by unfold Folder.look; rw [if_neg hne, hfree]
  have e : "" ++ "_" ++ tstmp = "_" ++ tstmp := by rw [String.empty_append]
  have hf : createFolder d "" tstmp = (d.set ("_" ++ tstmp) (.dir []), .ok ("_" ++ tstmp)) := by
    cases hk : d.keys with
    | nil => exact absurd hk hd
    | cons a l =>
      rw [hk] at hl
      unfold createFolder Folder.mkdir
      simp only [hl, e, hl2]
      rfl
  refine ⟨c, ?_, ?_⟩ <;> (unfold createGrid; simp only [hf, hc])

/-- **C91, violated**: a tile size of 1000 is refused, and the folder is there afterwards; a second grid in the folder of the first. -/
theorem C91_violated : (∃ (d : Dict String Entry) (name : String) (e : Err), (createGrid d (some name) "20240101_000000" "single_resolution" "zarr" 1000 128).2 = .error e ∧
      d.get? name = none ∧ (createGrid d (some name) "20240101_000000" "single_resolution" "zarr" 1000 128).1.get? name = some (.dir [])) ∧
    ∃ (d d' : Dict String Entry) (c c' : GridClass) (n : String), createGrid d (some "g") "20240101_000000" "single_resolution" "zarr" 1024 128 = (d', .ok (c, some n)) ∧
      (createGrid d' (some "g") "20240101_000001" "variable_resolution_tile" "numpy" 1024 128).2 = .ok (c', some n) ∧ c ≠ c' :=
  ⟨⟨[], "g", .valueError, by decide +kernel, by decide +kernel, by decide +kernel⟩,
    ⟨[], [("g", .dir [])], .srGridZarr, .vrGridTile, "g", by decide +kernel, by decide +kernel, by decide⟩⟩

/-- the hypotheses are met -/
example : GoodOptions "single_resolution" "zarr" 1024 128 ∧ ¬ GoodOptions "single_resolution" "zarr" 1000 128 ∧
    (createGrid [("g", .dir ["SRGrid_Root"])] (some "g") "20240101_000000" "single_resolution" "zarr" 1024 128).2 = .ok (.srGridZarr, some "g_20240101_000000") ∧
    (createGrid [("g", .dir [])] (some "g") "20240101_000000" "single_resolution" "zarr" 1000 128).2 = .error .valueError ∧
    (Dict.keys [("SRGrid_Root", Entry.dir [])] ≠ [] ∧ Dict.get? [("SRGrid_Root", Entry.dir [])] ("_" ++ "20240101_000000") = none) := by
  refine ⟨⟨.srGridZarr, by decide +kernel⟩, ?_, by decide +kernel, by decide +kernel, by decide +kernel⟩
  rintro ⟨c, hc⟩
  have : createClass "single_resolution" "zarr" 1000 128 = .error .valueError := by decide +kernel
  rw [this] at hc
  cases hc

end Bathy
