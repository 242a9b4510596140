import Verif.Core.Outcome

/-!
Model of `Graph` (McCalib/src/Graph.cpp, McCalib/include/Graph.hpp).

The boost `adjacency_list<listS, vecS, undirectedS>` is modelled by the list of vertex names in
vertex-index order and the list of edges in insertion order.  The vertex id type is an arbitrary
type `α` with decidable equality (`int` in the code; `std::stoi (std::to_string v) = v` is taken
for granted).  Weights are exact rationals.
-/
namespace Verif

/-- Graph.hpp:15-62 (`Graph`): `graph_` and `idx_to_vertex_`. -/
structure Graph (α : Type) where
  /-- `boost::vertex_name` of vertex 0, 1, ... -/
  names : List α
  /-- `idx_to_vertex_`, most recently written binding first -/
  index : List (α × Nat)
  /-- edges `(source, target, weight)` in insertion order -/
  edges : List (Nat × Nat × Rat)
  deriving Repr, DecidableEq

namespace Graph
variable {α : Type} [DecidableEq α]

/-- A default-constructed `Graph` (Graph.hpp:15). -/
def empty : Graph α := ⟨[], [], []⟩

/-- `idx_to_vertex_.find(v)`. -/
def find? (g : Graph α) (v : α) : Option Nat := g.index.lookup v

/-- Graph.cpp:39-49 `Graph::addVertex`. -/
def addVertex (g : Graph α) (v : α) : Graph α :=
  match g.find? v with
  | some _ => g
  | none => { g with names := g.names ++ [v], index := (v, g.names.length) :: g.index }

/-- Graph.cpp:16-29 `Graph::addEdge`.  Both lookups are made before `idx_to_vertex_` is written,
so with `v1 = v2` absent two vertices are created and the second one is remembered. -/
def addEdge (g : Graph α) (v1 v2 : α) (w : Rat) : Graph α :=
  let (x1, names1) := match g.find? v1 with
    | some i => (i, g.names)
    | none => (g.names.length, g.names ++ [v1])
  let (x2, names2) := match g.find? v2 with
    | some i => (i, names1)
    | none => (names1.length, names1 ++ [v2])
  { names := names2
    index := (v2, x2) :: (v1, x1) :: g.index
    edges := g.edges ++ [(x1, x2, w)] }

/-- Graph.cpp:55-58 `Graph::clearGraph`. -/
def clear (_ : Graph α) : Graph α := empty

/-- Out-edges of vertex `u` (`boost::out_edges`): an undirected edge is listed at both ends, in
insertion order (a self-loop twice). -/
def outEdges (g : Graph α) (u : Nat) : List (Nat × Rat) :=
  g.edges.flatMap fun e =>
    (if e.1 = u then [(e.2.1, e.2.2)] else []) ++ (if e.2.1 = u then [(e.1, e.2.2)] else [])

/-- Targets of the out-edges of `u`. -/
def nbrs (g : Graph α) (u : Nat) : List Nat := (g.outEdges u).map (·.1)

/-! ### Connected components -/

/-- `boost::depth_first_visit` restricted to what `connected_components` uses: the list of
vertices discovered, starting from the already coloured `vis`.  `fuel` bounds the recursion depth
(the number of vertices suffices, `Lemmas/Graph`). -/
def dfs (adj : Nat → List Nat) : Nat → List Nat → Nat → List Nat
  | 0, vis, _ => vis
  | f + 1, vis, v => if v ∈ vis then vis else (adj v).foldl (dfs adj f) (v :: vis)

/-- `boost::connected_components`: vertices are tried in index order, each undiscovered one starts
the next component.  Returns all coloured vertices and the components found so far (as sets). -/
def compStep (g : Graph α) (st : List Nat × List (List Nat)) (i : Nat) :
    List Nat × List (List Nat) :=
  if i ∈ st.1 then st
  else
    let vis' := dfs g.nbrs g.names.length st.1 i
    (vis', st.2 ++ [vis'.filter (fun v => v ∉ st.1)])

/-- The components as sets of vertex indices, in order of component number. -/
def compSets (g : Graph α) : List (List Nat) :=
  ((List.range g.names.length).foldl g.compStep ([], [])).2

/-- Graph.cpp:66-94 `Graph::connectedComponents`: for each component number, the names of its
vertices in increasing vertex index.  (`names[i]?` is always present for `i < num_vertices`.) -/
def connectedComponents (g : Graph α) : List (List α) :=
  g.compSets.map fun c =>
    ((List.range g.names.length).filter (· ∈ c)).filterMap fun i => g.names[i]?

/-! ### Dijkstra -/

/-- Conversion of a `double` weight to the `int` value type of the distance map
(Graph.cpp:117 `std::vector<int> distances`; `boost::closed_plus<int>` converts its arguments):
truncation towards zero. -/
def trunc (w : Rat) : Int := w.num.tdiv w.den

/-- State of `boost::dijkstra_shortest_paths` (Graph.cpp:126).  `none` is `numeric_limits<int>::max()`. -/
structure DState where
  dist : Nat → Option Int
  pred : Nat → Nat
  /-- gray vertices, in the priority queue -/
  queue : List Nat
  /-- black vertices, most recently finished first -/
  done : List Nat

/-- `f` with the value at `a` replaced. -/
def upd {β} (f : Nat → β) (a : Nat) (b : β) : Nat → β := fun x => if x = a then b else f x

/-- Comparison of distances, `none` being infinity. -/
def distLe : Option Int → Option Int → Bool
  | _, none => true
  | none, some _ => false
  | some a, some b => decide (a ≤ b)

/-- `boost::detail::init_one_vertex` for all vertices and the source's distance. -/
def dinit (s : Nat) : DState :=
  { dist := upd (fun _ => none) s (some 0), pred := id, queue := [s], done := [] }

/-- `relax_target`: strictly smaller distances are stored together with the predecessor. -/
def relax (u : Nat) (v : Nat) (w : Rat) (st : DState) : DState :=
  match st.dist u with
  | none => st
  | some du =>
    let c := du + trunc w
    if distLe (st.dist v) (some c) then st
    else { st with dist := upd st.dist v (some c), pred := upd st.pred v u }

/-- One out-edge of the vertex being examined: `examine_edge` throws `negative_edge` if the
(converted) weight is negative; a white target is relaxed and queued, a gray one relaxed. -/
def visitEdge (u : Nat) (st : DState) (e : Nat × Rat) : Outcome DState :=
  if trunc e.2 < 0 then .throw
  else if e.1 ∈ st.done ∨ e.1 = u then .ok st
  else if e.1 ∈ st.queue then .ok (relax u e.1 e.2 st)
  else
    let st' := relax u e.1 e.2 st
    .ok { st' with queue := st'.queue ++ [e.1] }

/-- The first element of `q` with least distance. -/
def firstMin (dist : Nat → Option Int) : List Nat → Option Nat
  | [] => none
  | x :: xs => match firstMin dist xs with
    | none => some x
    | some y => if distLe (dist x) (dist y) then some x else some y

/-- The vertex taken from the priority queue.  The d-ary heap's order among equal distances is
not modelled: `choose` is an arbitrary tie-breaker, obeyed whenever it names a minimal element. -/
def popMin (choose : DState → Nat) (st : DState) : Option Nat :=
  if choose st ∈ st.queue ∧ ∀ q ∈ st.queue, distLe (st.dist (choose st)) (st.dist q) then
    some (choose st)
  else firstMin st.dist st.queue

/-- The main loop of `boost::breadth_first_visit` run by Dijkstra.  `fuel` bounds the number of
vertices taken from the queue. -/
def dloop (g : Graph α) (choose : DState → Nat) : Nat → DState → Outcome DState
  | 0, st => .ok st
  | f + 1, st =>
    match popMin choose st with
    | none => .ok st
    | some u =>
      (Outcome.foldlM (visitEdge u) { st with queue := st.queue.erase u } (g.outEdges u)).bind
        fun st' => dloop g choose f { st' with done := u :: st'.done }

/-- Graph.cpp:126 `boost::dijkstra_shortest_paths(graph_, source, ...)`. -/
def dijkstra (g : Graph α) (choose : DState → Nat) (s : Nat) : Outcome DState :=
  dloop g choose (g.names.length + 1) (dinit s)

/-- Graph.cpp:140-153 `Graph::getPath`, before `std::reverse`: names from the destination back to
the source.  `none`: the loop has not ended after `fuel` rounds. -/
def walkBack (pred : Nat → Nat) (s : Nat) : Nat → Nat → Option (List Nat)
  | 0, _ => none
  | f + 1, cur =>
    if cur = s then some [s]
    else (walkBack pred s f (pred cur)).map (cur :: ·)

/-- Graph.cpp:140-153.  The loop follows `p_map` until it meets the source.  It visits a new
vertex each round or never ends, so `n` rounds without success mean that it never ends
(`Lemmas/Graph: walkBack_none`). -/
def getPath (g : Graph α) (pred : Nat → Nat) (s d : Nat) : Outcome (List α) :=
  match walkBack pred s (g.names.length + 1) d with
  | none => .diverge
  | some p => .ok (p.reverse.filterMap fun i => g.names[i]?)

/-- Graph.cpp:104-133 `Graph::shortestPathBetween`. -/
def shortestPathBetween (g : Graph α) (choose : DState → Nat) (v1 v2 : α) : Outcome (List α) :=
  match g.find? v1, g.find? v2 with
  | some s, some d => do
    let st ← dijkstra g choose s
    getPath g st.pred s d
  | _, _ => .ok []

/-! ### Call histories -/

/-- A mutating call of the `Graph` API. -/
inductive Call (α : Type) where
  | addVertex (v : α)
  | addEdge (v1 v2 : α) (w : Rat)
  | clear
  deriving Repr, DecidableEq

/-- Effect of one call. -/
def apply (g : Graph α) : Call α → Graph α
  | .addVertex v => g.addVertex v
  | .addEdge v1 v2 w => g.addEdge v1 v2 w
  | .clear => g.clear

/-- The graph after a call history. -/
def run (h : List (Call α)) : Graph α := h.foldl apply empty

end Graph
end Verif
