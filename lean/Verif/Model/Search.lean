import Mathlib.Data.List.Basic

/-!
The graph searches of networkx used by DiTTo, over a neighbour function `nb : α → List α` that lists the neighbours of a
node in the order of the adjacency dictionary.
-/
namespace Ditto.Search

variable {α : Type} [DecidableEq α]

/-- queue, visited nodes and yielded edges of a breadth first search -/
structure Bfs (α : Type) where
  queue : List α
  visited : List α
  edges : List (α × α)

/-- `if child not in visited: yield parent, child; visited.add(child); queue.append(child)`
(networkx `generic_bfs_edges`, used by `nx.bfs_edges` in ditto/network/network.py:444). -/
def bfsChild (parent : α) (s : Bfs α) (child : α) : Bfs α :=
  if child ∈ s.visited then s
  else ⟨s.queue ++ [child], s.visited ++ [child], s.edges ++ [(parent, child)]⟩

/-- The loop of `generic_bfs_edges`: take the first node of the queue and visit its neighbours. The first argument bounds
the number of nodes taken from the queue. -/
def bfsLoop (nb : α → List α) : Nat → Bfs α → Bfs α
  | 0, s => s
  | n + 1, s =>
    match s.queue with
    | [] => s
    | p :: q => bfsLoop nb n ((nb p).foldl (bfsChild p) { s with queue := q })

/-- `list(nx.bfs_edges(graph, source))` of a graph with `n` nodes -/
def bfsEdges (nb : α → List α) (n : Nat) (source : α) : List (α × α) :=
  (bfsLoop nb n ⟨[source], [source], []⟩).edges

/-- stack (each node with its remaining children), visited nodes and yielded edges of a depth first search -/
structure Dfs (α : Type) where
  stack : List (α × List α)
  visited : List α
  edges : List (α × α)

/-- One round of the loop of networkx `dfs_edges` (used by `nx.dfs_successors` in ditto/network/network.py:390) -/
def dfsStep (nb : α → List α) (s : Dfs α) : Dfs α :=
  match s.stack with
  | [] => s
  | (_, []) :: st => { s with stack := st }
  | (p, c :: cs) :: st =>
    if c ∈ s.visited then { s with stack := (p, cs) :: st }
    else ⟨(c, nb c) :: (p, cs) :: st, s.visited ++ [c], s.edges ++ [(p, c)]⟩

/-- the loop of `dfs_edges`; the first argument bounds the number of rounds -/
def dfsLoop (nb : α → List α) : Nat → Dfs α → Dfs α
  | 0, s => s
  | n + 1, s => if s.stack.isEmpty then s else dfsLoop nb n (dfsStep nb s)

/-- `nx.dfs_edges(graph, source)` of a graph with the given nodes: every node is pushed at most once, and each of its
children is looked at once. -/
def dfsEdges (nb : α → List α) (nodes : List α) (source : α) : List (α × α) :=
  (dfsLoop nb ((nodes.map fun u => (nb u).length + 1).sum) ⟨[(source, nb source)], [source], []⟩).edges

end Ditto.Search
