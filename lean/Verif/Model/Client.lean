import Verif.Model.GridRun

/-!
# the Dask client and the groups of tiles sent to it (bathygrid/utilities.py:20-67, bathygrid/bgrid.py:1378-1459)

Dask itself is not modelled: looking for a client and starting one are functions that are given.
-/

namespace Bathy

/-- what `dask_find_or_start_client` finds around it: `get_client`, `Client`, the number of logical cores (`None` if it cannot be determined) and the
memory in units of 10^9 bytes.  A client is of an arbitrary type. -/
structure Host (κ : Type) where
  getClient : Option String → Except Err κ
  newClient : Option String → Nat → Except Err κ
  cores : Option Nat
  memory : ℚ

/-- the lines printed by `dask_find_or_start_client` -/
inductive ClientLine (κ : Type)
  | usingLocal | usingAt (address : String) | startingLocal | startingAt (address : String) | shows (client : κ)
deriving DecidableEq

/-- bathygrid/utilities.py:46-54: the number of workers of a new client; `min(None, 8)` is TypeError -/
def Host.workers {κ : Type} (h : Host κ) : Except Err Nat :=
  match h.cores with
  | none => .error .typeError
  | some c => .ok (if 24 < h.memory then min c 8 else min c 4)

/-- bathygrid/utilities.py:20-67 `dask_find_or_start_client`: the lines printed, and the client or the exception.  The client that is found or started is
never None. -/
def findOrStart {κ : Type} (h : Host κ) (address : Option String) (silent : Bool) : List (ClientLine κ) × Except Err κ :=
  match h.getClient address with
  | .ok c =>
    let line := match address with | none => ClientLine.usingLocal | some a => .usingAt a
    ((if silent then [] else [line]) ++ [.shows c], .ok c)
  | .error .valueError =>
    match h.workers with
    | .error e => ([], .error e)
    | .ok n =>
      let line := match address with | none => ClientLine.startingLocal | some a => .startingAt a
      let lines := if silent then [] else [line]
      match h.newClient address n with
      | .error e => (lines, .error e)
      | .ok c => (lines ++ [.shows c], .ok c)
  | .error e => ([], .error e)

namespace Grid

variable {τ : Type}

/-- state of the loop of `_grid_parallel` with `cur_run` and the lines `processing surface: group {} out of {}` printed so far -/
structure ParPrint (τ : Type) where
  par : ParState τ
  run : Nat
  printed : List (Nat × Int)

/-- bathygrid/bgrid.py:1419-1454: one round of the loop of `_grid_parallel` with what it prints -/
def parStepPrint [GridLike τ] (env : Env) (n : Nat) (total : Int) (a : GridCall) (p : Plan) (s : ParPrint τ) (k : Nat) : Res (ParPrint τ) :=
  let g := s.par.grid
  match g.tile? k with
  | some (some t) =>
    if skips a s.par.clear t then .ok { s with par := { s.par with grid := { g with resolutions := addNew g.resolutions (GridLike.resolutions t) } } }
    else
      let clear := clearNext a s.par.clear t
      match parLimit a p with
      | .error e => .fail { s with par := { s.par with clear := clear } } e
      | .ok limit =>
        match g.borderFor k t a.alg limit a.border with
        | .error e => .fail { s with par := { s.par with clear := clear } } e
        | .ok b =>
          let jobs := s.par.jobs ++ [⟨k, t, g.childCall a p clear b⟩]
          if jobs.length = n then
            let r := runJobs env g jobs
            ⟨⟨⟨r.st, clear, []⟩, s.run + 1, s.printed ++ [((s.run : Nat), total)]⟩, r.err⟩
          else .ok { s with par := ⟨g, clear, jobs⟩ }
  | _ => .ok s

/-- bathygrid/bgrid.py:1410: `total_runs = int(np.ceil(self.number_of_tiles / 8))` -/
def totalRuns (tiles : Int) : Int := ⌈(tiles : ℚ) / 8⌉

/-- bathygrid/bgrid.py:1411-1459: the rest of `_grid_parallel`, after `total_runs` -/
def parRuns [GridLike τ] (env : Env) (n : Nat) (total : Int) (g : Grid τ) (a : GridCall) (p : Plan) : List (Nat × Int) × Res (Grid τ) :=
  let r := Res.forEach (List.range g.slots) (⟨⟨{ g with resolutions := [] }, a.clear, []⟩, 1, []⟩ : ParPrint τ) (parStepPrint env n total a p)
  match r.err with
  | some e => (r.st.printed, .fail r.st.par.grid e)
  | none =>
    let printed := if r.st.par.jobs.isEmpty then r.st.printed else r.st.printed ++ [(r.st.run, total)]
    (printed, (lastJobs env r.st.par.grid r.st.par.jobs).andThen (fun g => .ok { g with resolutions := npUnique g.resolutions }))

/-- bathygrid/bgrid.py:1378-1459 `_grid_parallel` with `n` workers and what it prints.  Without `number_of_tiles` the quotient is TypeError. -/
def gridParallelPrint [GridLike τ] (env : Env) (n : Nat) (g : Grid τ) (a : GridCall) (p : Plan) : List (Nat × Int) × Res (Grid τ) :=
  match g.numberOfTiles with
  | none => ([], .fail g .typeError)
  | some tiles => g.parRuns env n (totalRuns tiles) a p

/-- bathygrid/bgrid.py:1461-1521 `grid` with `use_dask=True`, `n` workers, and what `_grid_parallel` prints -/
def gridDaskPrint [GridLike τ] (env : Env) (n : Nat) (g : Grid τ) (a : GridCall) : List (Nat × Int) × Res (Grid τ) :=
  let r := gridPlan env g a
  match r.1.err with
  | some e => ([], .fail r.1.st e)
  | none => r.1.st.gridParallelPrint env n a r.2

end Grid

end Bathy
