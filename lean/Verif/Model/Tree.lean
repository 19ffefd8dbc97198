import Verif.Model.Lockfile

/-!
# Dependency trees

Models `cargo-lock/src/dependency/tree.rs` and `dependency/graph.rs`.
-/

namespace Verif.Lock

open Verif.Semver

/-- Derived `Ord` of `Option<SourceId>`: `None` first. -/
def optSourceCmp : Option SourceId → Option SourceId → Ordering
  | none, none => .eq
  | none, some _ => .lt
  | some _, none => .gt
  | some a, some b => a.cmp b

/-- `dependency.rs:17`: derived `Ord` of `Dependency`, field by field. -/
def Dependency.cmp (a b : Dependency) : Ordering :=
  (strCmp a.name b.name).then ((a.version.cmp b.version).then (optSourceCmp a.source b.source))

/-- `graph.rs:11`: `Nodes`, a `BTreeMap<Dependency, NodeIndex>`.  Simplification: an association list searched
from the front with the key order's equality, in insertion order instead of key order. -/
abbrev Nodes := List (Dependency × Nat)

/-- `BTreeMap::get`. -/
def Nodes.get (m : Nodes) (d : Dependency) : Option Nat :=
  (m.find? fun e => decide (d.cmp e.1 = .eq)).map (·.2)

/-- `BTreeMap::insert`: an equal key keeps its key and gets the new value. -/
def Nodes.insert : Nodes → Dependency → Nat → Nodes
  | [], d, i => [(d, i)]
  | (k, j) :: m, d, i => if d.cmp k = .eq then (k, i) :: m else (k, j) :: Nodes.insert m d i

/-- `graph.rs:8`: `petgraph::Graph<Package, Dependency>`: the node weights by index and the edges
(source, target, weight) in insertion order. -/
structure Graph where
  nodes : List Package
  edges : List (Nat × Nat × Dependency)
  deriving DecidableEq, Repr

/-- `tree.rs:15-22`: `struct Tree`. -/
structure Tree where
  graph : Graph
  nodes : Nodes
  deriving DecidableEq, Repr

/-- `tree.rs:31-35`: the first pass, from index `i` on. -/
def populateNodes : List Package → Nat → Nodes → Nodes
  | [], _, m => m
  | p :: ps, i, m => populateNodes ps (i + 1) (m.insert (Dependency.ofPackage p) i)

/-- `tree.rs:41-49`: the edges of one package; an error if a dependency is not a key. -/
def addDeps (m : Nodes) (parent : Nat) : List Dependency → Outcome (List (Nat × Nat × Dependency))
  | [] => .ok []
  | d :: ds =>
    match m.get d with
    | some i =>
      match addDeps m parent ds with
      | .ok es => .ok ((parent, i, d) :: es)
      | .err => .err
      | .panic => .panic
    | none => .err

/-- `tree.rs:37-50`: the second pass; `nodes[&key]` panics if the key is missing. -/
def addEdges (m : Nodes) : List Package → Outcome (List (Nat × Nat × Dependency))
  | [] => .ok []
  | p :: ps =>
    match m.get (Dependency.ofPackage p) with
    | none => .panic
    | some parent =>
      match addDeps m parent p.dependencies with
      | .ok es =>
        match addEdges m ps with
        | .ok es' => .ok (es ++ es')
        | .err => .err
        | .panic => .panic
      | .err => .err
      | .panic => .panic

/-- `tree.rs:27-53`: `Tree::new`. -/
def Tree.new (l : Lockfile) : Outcome Tree :=
  let m := populateNodes l.packages 0 []
  match addEdges m l.packages with
  | .ok es => .ok { graph := { nodes := l.packages, edges := es }, nodes := m }
  | .err => .err
  | .panic => .panic

/-- `petgraph::EdgeDirection`. -/
inductive Direction where
  | outgoing | incoming
  deriving DecidableEq, Repr

/-- `tree.rs:82-84`: `Tree::roots`, `Graph::externals(Incoming)`: the nodes without incoming edges, by index. -/
def Tree.roots (t : Tree) : List Nat :=
  (List.range t.graph.nodes.length).filter fun i => !(t.graph.edges.any fun e => e.2.1 == i)

/-- `tree.rs:184-191`: the far ends of the edges at a node in a direction.  `petgraph` lists the edges of a node
from the most recently added one. -/
def Graph.neighbours (g : Graph) (dir : Direction) (i : Nat) : List Nat :=
  match dir with
  | .outgoing => (g.edges.filter fun e => e.1 == i).reverse.map (·.2.1)
  | .incoming => (g.edges.filter fun e => e.2.1 == i).reverse.map (·.1)

/-- One printed line: `levels_continue` at that moment, and the node. -/
structure Line where
  levels : List Bool
  node : Nat
  deriving DecidableEq, Repr

/-- `tree.rs:193-197`: the loop over the children; `pr` prints one child with the given levels and visited
set.  `i < len - 1` is "not the last one".  The visited set is a list. -/
def printAll (pr : List Bool → List Nat → Nat → Option (List Line × List Nat)) (lv : List Bool) :
    List Nat → List Nat → Option (List Line × List Nat)
  | vis, [] => some ([], vis)
  | vis, d :: ds =>
    match pr (lv ++ [!ds.isEmpty]) vis d with
    | none => none
    | some (ls, vis) =>
      match printAll pr lv vis ds with
      | none => none
      | some (ls', vis) => some (ls ++ ls', vis)

/-- `tree.rs:143-202`: `Presenter::print_node`, as the lines it prints and the visited set it leaves; `none` is
running out of fuel (recursion deeper than the first argument).  Simplification: the writer never fails. -/
def printNode (nb : Nat → List Nat) : Nat → List Bool → List Nat → Nat → Option (List Line × List Nat)
  | 0, _, _, _ => none
  | fuel + 1, lv, vis, i =>
    if i ∈ vis then some ([{ levels := lv, node := i }], vis)
    else
      match printAll (printNode nb fuel) lv (i :: vis) (nb i) with
      | none => none
      | some (ls, vis) => some ({ levels := lv, node := i } :: ls, vis)

/-- `tree.rs:153-168`: the drawing before a line: a bar or a blank for each outer level, then the branch. -/
def linePrefix (lv : List Bool) : Str :=
  match lv.getLast? with
  | none => []
  | some last =>
    lv.dropLast.flatMap (fun c => (if c then '│' else ' ') :: [' ', ' ', ' ']) ++
      [if last then '├' else '└', '─', '─', ' ']

/-- `tree.rs:171-177`: what the exact form adds. -/
def exactSpec (p : Package) : Str :=
  match p.checksum with
  | some c => "checksum:".toList ++ Checksum.show c
  | none =>
    match p.source with
    | some s => s.asUrl false
    | none => "inexact".toList

/-- `tree.rs:153-181`: the text of a line. -/
def lineText (C : Codec) (exact : Bool) (p : Package) (lv : List Bool) : Str :=
  linePrefix lv ++ p.name ++ ' ' :: C.showVersion p.version ++
    (if exact then ' ' :: exactSpec p else []) ++ ['\n']

/-- `tree.rs:68-77`: the lines of `render_with_symbols`, with recursion bounded by the number of nodes (shown to
be enough). -/
def Graph.renderLines (g : Graph) (dir : Direction) (start : Nat) : Option (List Line) :=
  (printNode (g.neighbours dir) (g.nodes.length + 1) [] [] start).map (·.1)

/-- `tree.rs:56-77`: `Tree::render`: the text written.  `.panic` is an index out of range (`&self.graph[i]`) or
unbounded recursion. -/
def Tree.render (C : Codec) (t : Tree) (start : Nat) (dir : Direction) (exact : Bool) : Outcome Str :=
  match t.graph.renderLines dir start with
  | none => .panic
  | some ls =>
    if ls.all fun l => decide (l.node < t.graph.nodes.length) then
      .ok (ls.flatMap fun l =>
        match t.graph.nodes[l.node]? with
        | some p => lineText C exact p l.levels
        | none => [])
    else .panic

end Verif.Lock
