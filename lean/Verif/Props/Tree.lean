import Verif.Lemmas.Tree
import Verif.Props.SourceCmp
import Verif.Props.Lockfile
import Verif.Lemmas.SemverOrder

/-!
# C31, C32: the dependency tree

`Tree::new` builds the dependency graph of a lockfile; `Tree::render` prints the part of it reachable from a
node.
-/

namespace Verif.Props

open Verif Verif.Lock Verif.Spec Verif.Semver Std

/-! ### Keys -/

/-- Two optional sources are the same. -/
private def SameSrc (a b : Option SourceId) : Prop :=
  (a = none ∧ b = none) ∨ ∃ x y, a = some x ∧ b = some y ∧ SameSource x y

private theorem strCmp_eq' {a b : Str} : strCmp a b = .eq ↔ a = b :=
  ⟨fun h => LawfulEqCmp.eq_of_compare (cmp := List.compareLex compare) h,
   fun h => h ▸ ReflCmp.compare_self (cmp := List.compareLex compare)⟩

private theorem sourceCmp_eq {a b : SourceId} : a.cmp b = .eq ↔ SameSource a b := by
  have := C27_eq_iff a b
  unfold SourceId.eq at this
  rw [beq_iff_eq] at this
  exact this

private theorem depCmp_eq (d e : Dependency) : d.cmp e = .eq ↔
    d.name = e.name ∧ d.version = e.version ∧ SameSrc d.source e.source := by
  unfold Dependency.cmp
  rw [Ordering.then_eq_eq, Ordering.then_eq_eq, strCmp_eq',
    LawfulEqCmp.compare_eq_iff_eq (cmp := Version.cmp)]
  refine and_congr_right fun _ => and_congr_right fun _ => ?_
  unfold SameSrc
  cases hd : d.source with
  | none => cases hp : e.source <;> simp [optSourceCmp]
  | some a =>
    cases hp : e.source with
    | none => simp [optSourceCmp]
    | some b =>
      simp only [optSourceCmp, reduceCtorEq, and_self, false_or, Option.some.injEq, sourceCmp_eq]
      constructor
      · intro h; exact ⟨a, b, rfl, rfl, h⟩
      · rintro ⟨_, _, rfl, rfl, h⟩; exact h

theorem names_iff (d : Dependency) (p : Package) :
    NamesPkg d p ↔ d.cmp (Dependency.ofPackage p) = .eq := (depCmp_eq d (Dependency.ofPackage p)).symm

/-- Keys on which equality is an equivalence. -/
def DepOk (d : Dependency) : Prop := ∀ s, d.source = some s → Comparable s

theorem dep_refl (d : Dependency) : d.cmp d = .eq := by
  rw [depCmp_eq]
  refine ⟨rfl, rfl, ?_⟩
  cases h : d.source with
  | none => exact Or.inl ⟨rfl, rfl⟩
  | some s => exact Or.inr ⟨s, s, rfl, rfl, (C27_eq_iff s s).mp (C27_eq_refl s)⟩

theorem dep_symm {d e : Dependency} (h : d.cmp e = .eq) : e.cmp d = .eq := by
  rw [depCmp_eq] at h ⊢
  obtain ⟨h1, h2, h3⟩ := h
  refine ⟨h1.symm, h2.symm, ?_⟩
  rcases h3 with ⟨a, b⟩ | ⟨x, y, hx, hy, h⟩
  · exact Or.inl ⟨b, a⟩
  · exact Or.inr ⟨y, x, hy, hx, (C27_eq_iff y x).mp (C27_eq_symm x y ((C27_eq_iff x y).mpr h))⟩

theorem dep_trans {c d e : Dependency} (hc : DepOk c) (hd : DepOk d) (he : DepOk e)
    (h1 : c.cmp d = .eq) (h2 : d.cmp e = .eq) : c.cmp e = .eq := by
  rw [depCmp_eq] at h1 h2 ⊢
  obtain ⟨a1, a2, a3⟩ := h1
  obtain ⟨b1, b2, b3⟩ := h2
  refine ⟨a1.trans b1, a2.trans b2, ?_⟩
  rcases a3 with ⟨p, q⟩ | ⟨x, y, hx, hy, h⟩
  · rcases b3 with ⟨p', q'⟩ | ⟨x', y', hx', hy', h'⟩
    · exact Or.inl ⟨p, q'⟩
    · rw [q] at hx'; cases hx'
  · rcases b3 with ⟨p', q'⟩ | ⟨x', y', hx', hy', h'⟩
    · rw [hy] at p'; cases p'
    · rw [hy] at hx'
      cases hx'
      refine Or.inr ⟨x, y', hx, hy', ?_⟩
      rw [SameSource, ← IsGit, ← IsGit] at h h' ⊢
      exact (C27_eq_iff x y').mp
        (C27_eq_trans (hc x hx) (hd y hy) (he y' hy') ((C27_eq_iff x y).mpr h) ((C27_eq_iff y y').mpr h'))

/-! ### The node map -/

private theorem keys_insert (m : Nodes) (d : Dependency) (i : Nat) :
    ∀ k ∈ (m.insert d i).map Prod.fst, k = d ∨ k ∈ m.map Prod.fst := by
  induction m with
  | nil => simp [Nodes.insert]
  | cons e m ih =>
    obtain ⟨k, j⟩ := e
    unfold Nodes.insert
    by_cases h : d.cmp k = .eq
    · rw [if_pos h]; intro x hx; exact Or.inr (by simpa using hx)
    · rw [if_neg h]
      intro x hx
      simp only [List.map_cons, List.mem_cons] at hx ⊢
      rcases hx with hx | hx
      · exact Or.inr (Or.inl hx)
      · rcases ih x hx with h | h
        · exact Or.inl h
        · exact Or.inr (Or.inr h)

private theorem get_cons (k : Dependency) (j : Nat) (m : Nodes) (d : Dependency) :
    Nodes.get ((k, j) :: m) d = if d.cmp k = .eq then some j else Nodes.get m d := by
  unfold Nodes.get
  rw [List.find?_cons]
  by_cases h : d.cmp k = .eq
  · simp [h]
  · simp [h]

private theorem get_insert (m : Nodes) (d e : Dependency) (i : Nat) (hd : DepOk d) (he : DepOk e)
    (hm : ∀ k ∈ m.map Prod.fst, DepOk k) :
    (m.insert d i).get e = if e.cmp d = .eq then some i else m.get e := by
  induction m with
  | nil => unfold Nodes.insert; rw [get_cons]
  | cons x m ih =>
    obtain ⟨k, j⟩ := x
    have hk : DepOk k := hm k (by simp)
    have ih := ih (fun k hk => hm k (by simp at hk ⊢; exact Or.inr hk))
    unfold Nodes.insert
    by_cases h : d.cmp k = .eq
    · rw [if_pos h, get_cons, get_cons]
      by_cases h' : e.cmp d = .eq
      · rw [if_pos h', if_pos (dep_trans he hd hk h' h)]
      · rw [if_neg h', if_neg fun h'' => h' (dep_trans he hk hd h'' (dep_symm h)),
          if_neg fun h'' => h' (dep_trans he hk hd h'' (dep_symm h))]
    · rw [if_neg h, get_cons, get_cons, ih]
      by_cases h' : e.cmp d = .eq
      · rw [if_pos h', if_pos h', if_neg fun h'' => h (dep_trans hd he hk (dep_symm h') h'')]
      · rw [if_neg h', if_neg h']

private theorem get_populate (e : Dependency) (he : DepOk e) : ∀ (ps : List Package) (i : Nat) (m : Nodes),
    (∀ p ∈ ps, DepOk (Dependency.ofPackage p)) → (∀ k ∈ m.map Prod.fst, DepOk k) → ∀ j,
    ((populateNodes ps i m).get e = some j ↔
      (i ≤ j ∧ NodeOf ps e (j - i)) ∨ ((∀ p ∈ ps, ¬ NamesPkg e p) ∧ m.get e = some j))
  | [], i, m, _, _, j => by
    unfold populateNodes NodeOf
    simp
  | p :: ps, i, m, hp, hm, j => by
    unfold populateNodes
    have hpo := hp p (by simp)
    have hps : ∀ q ∈ ps, DepOk (Dependency.ofPackage q) := fun q hq => hp q (by simp [hq])
    rw [get_populate e he ps (i + 1) _ hps ?_ j, get_insert m _ e i hpo he hm]
    · constructor
      · rintro (⟨h1, ⟨q, hq, hn⟩, h3⟩ | ⟨h1, h2⟩)
        · refine Or.inl ⟨by omega, ⟨q, ?_, hn⟩, ?_⟩
          · rw [show j - i = (j - (i + 1)) + 1 by omega]; exact hq
          · intro j' q' hj' hq'
            obtain ⟨j'', rfl⟩ : ∃ k, j' = k + 1 := ⟨j' - 1, by omega⟩
            exact h3 j'' q' (by omega) hq'
        · by_cases hn : e.cmp (Dependency.ofPackage p) = .eq
          · rw [if_pos hn, Option.some.injEq] at h2
            refine Or.inl ⟨by omega, ⟨p, by rw [show j - i = 0 by omega]; rfl, (names_iff e p).mpr hn⟩, ?_⟩
            intro j' q' hj' hq'
            obtain ⟨j'', rfl⟩ : ∃ k, j' = k + 1 := ⟨j' - 1, by omega⟩
            exact h1 q' (List.mem_of_getElem? hq')
          · rw [if_neg hn] at h2
            refine Or.inr ⟨?_, h2⟩
            intro q hq
            rw [List.mem_cons] at hq
            rcases hq with rfl | hq
            · rw [names_iff]; exact hn
            · exact h1 q hq
      · rintro (⟨h1, ⟨q, hq, hn⟩, h3⟩ | ⟨h1, h2⟩)
        · by_cases hj : j = i
          · subst hj
            rw [Nat.sub_self] at hq
            simp only [List.getElem?_cons_zero, Option.some.injEq] at hq
            subst hq
            refine Or.inr ⟨?_, by rw [if_pos ((names_iff e p).mp hn)]⟩
            intro q' hq' hn'
            obtain ⟨k, hk⟩ := List.getElem?_of_mem hq'
            exact h3 (k + 1) q' (by omega) hk hn'
          · refine Or.inl ⟨by omega, ⟨q, ?_, hn⟩, ?_⟩
            · rw [show j - i = (j - (i + 1)) + 1 by omega] at hq; exact hq
            · intro j' q' hj' hq'
              exact h3 (j' + 1) q' (by omega) hq'
        · refine Or.inr ⟨fun q hq => h1 q (by simp [hq]), ?_⟩
          rw [if_neg ?_]
          · exact h2
          · rw [← names_iff]; exact h1 p (by simp)
    · intro k hk
      rcases keys_insert m _ i k hk with rfl | hk
      · exact hpo
      · exact hm k hk

private theorem get_nodes {ps : List Package} (hps : ∀ p ∈ ps, DepOk (Dependency.ofPackage p)) {e : Dependency}
    (he : DepOk e) (j : Nat) : (populateNodes ps 0 []).get e = some j ↔ NodeOf ps e j := by
  rw [get_populate e he ps 0 [] hps (by simp) j]
  simp [Nodes.get]

/-- A dependency naming some package stands for a node, and only for one. -/
theorem nodeOf_exists {ps : List Package} {d : Dependency} :
    (∃ p ∈ ps, NamesPkg d p) → ∃ i, NodeOf ps d i := by
  induction ps with
  | nil => rintro ⟨p, hp, _⟩; simp at hp
  | cons q ps ih =>
    by_cases h : ∃ p ∈ ps, NamesPkg d p
    · intro _
      obtain ⟨i, ⟨r, hr, hnr⟩, h3⟩ := ih h
      refine ⟨i + 1, ⟨r, hr, hnr⟩, ?_⟩
      intro j x hj hx
      obtain ⟨j', rfl⟩ : ∃ k, j = k + 1 := ⟨j - 1, by omega⟩
      exact h3 j' x (by omega) hx
    · rintro ⟨p, hp, hn⟩
      rw [List.mem_cons] at hp
      rcases hp with rfl | hp
      · refine ⟨0, ⟨p, rfl, hn⟩, ?_⟩
        intro j x hj hx hnx
        obtain ⟨j', rfl⟩ : ∃ k, j = k + 1 := ⟨j - 1, by omega⟩
        exact h ⟨x, List.mem_of_getElem? hx, hnx⟩
      · exact absurd ⟨p, hp, hn⟩ h

theorem nodeOf_unique {ps : List Package} {d : Dependency} {i j : Nat} (hi : NodeOf ps d i)
    (hj : NodeOf ps d j) : i = j := by
  obtain ⟨⟨p, hp, hn⟩, h⟩ := hi
  obtain ⟨⟨q, hq, hn'⟩, h'⟩ := hj
  rcases Nat.lt_trichotomy i j with hlt | rfl | hlt
  · exact absurd hn' (h j q hlt hq)
  · rfl
  · exact absurd hn (h' i p hlt hp)

theorem nodeOf_lt {ps : List Package} {d : Dependency} {i : Nat} (hi : NodeOf ps d i) : i < ps.length := by
  obtain ⟨⟨p, hp, _⟩, _⟩ := hi
  exact (List.getElem?_eq_some_iff.mp hp).1

private theorem addDeps_no_panic (m : Nodes) (par : Nat) (ds : List Dependency) : addDeps m par ds ≠ .panic := by
  induction ds with
  | nil => simp [addDeps]
  | cons d ds ih => unfold addDeps; grind

private theorem addDeps_ok_iff (m : Nodes) (par : Nat) (ds : List Dependency) :
    (∃ es, addDeps m par ds = .ok es) ↔ ∀ d ∈ ds, ∃ i, m.get d = some i := by
  induction ds with
  | nil => simp [addDeps]
  | cons d ds ih =>
    rw [List.forall_mem_cons, ← ih, addDeps]
    have := addDeps_no_panic m par ds
    cases h : m.get d <;> cases h' : addDeps m par ds <;> simp_all

private theorem addDeps_edges {m : Nodes} {par : Nat} {ds : List Dependency} {es} (h : addDeps m par ds = .ok es) :
    es.map (fun e => (e.1, e.2.2)) = ds.map (fun d => (par, d)) ∧ ∀ e ∈ es, m.get e.2.2 = some e.2.1 := by
  induction ds generalizing es with
  | nil => unfold addDeps at h; cases h; simp
  | cons d ds ih =>
    unfold addDeps at h
    cases h1 : m.get d with
    | none => rw [h1] at h; cases h
    | some i =>
      rw [h1] at h
      cases h2 : addDeps m par ds with
      | ok es' =>
        rw [h2] at h
        simp only [Outcome.ok.injEq] at h
        subst h
        obtain ⟨a, b⟩ := ih h2
        refine ⟨by simp [a], ?_⟩
        intro e he
        rw [List.mem_cons] at he
        rcases he with rfl | he
        · exact h1
        · exact b e he
      | err => rw [h2] at h; cases h
      | panic => rw [h2] at h; cases h

/-- The node of a package. -/
private def nodeIdx (m : Nodes) (p : Package) : Nat := (m.get (Dependency.ofPackage p)).getD 0

private theorem addEdges_spec {m : Nodes} {ps : List Package}
    (hm : ∀ p ∈ ps, ∃ i, m.get (Dependency.ofPackage p) = some i) :
    addEdges m ps ≠ .panic ∧
    ((∃ es, addEdges m ps = .ok es) ↔ ∀ p ∈ ps, ∀ d ∈ p.dependencies, ∃ i, m.get d = some i) ∧
    ∀ es, addEdges m ps = .ok es →
      es.map (fun e => (e.1, e.2.2)) = ps.flatMap (fun p => p.dependencies.map fun d => (nodeIdx m p, d)) ∧
      ∀ e ∈ es, m.get e.2.2 = some e.2.1 := by
  induction ps with
  | nil => simp [addEdges]
  | cons p ps ih =>
    obtain ⟨ih1, ih2, ih3⟩ := ih fun q hq => hm q (by simp [hq])
    obtain ⟨i, hi⟩ := hm p (by simp)
    have hn : nodeIdx m p = i := by unfold nodeIdx; rw [hi]; rfl
    have np := addDeps_no_panic m i p.dependencies
    have hd := addDeps_ok_iff m i p.dependencies
    rw [addEdges, hi, List.forall_mem_cons, ← hd, ← ih2]
    simp only
    cases h1 : addDeps m i p.dependencies with
    | panic => exact absurd h1 np
    | err => simp
    | ok es =>
      cases h2 : addEdges m ps with
      | panic => exact absurd h2 ih1
      | err => simp
      | ok es' =>
        refine ⟨by simp, by simp, ?_⟩
        intro es'' h
        simp only [Outcome.ok.injEq] at h
        subst h
        obtain ⟨a1, a2⟩ := addDeps_edges h1
        obtain ⟨b1, b2⟩ := ih3 es' h2
        refine ⟨by rw [List.map_append, List.flatMap_cons, a1, b1, hn], ?_⟩
        intro e he
        rw [List.mem_append] at he
        rcases he with he | he
        · exact a2 e he
        · exact b2 e he

theorem pinned_ok {ps : List Package} (h : Pinned ps) :
    (∀ p ∈ ps, DepOk (Dependency.ofPackage p)) ∧ ∀ p ∈ ps, ∀ d ∈ p.dependencies, DepOk d :=
  ⟨fun p hp s hs hg => (h p hp).1 s hs hg, fun p hp d hd s hs hg => (h p hp).2 d hd s hs hg⟩

theorem names_self (p : Package) : NamesPkg (Dependency.ofPackage p) p :=
  (names_iff _ p).mpr (dep_refl _)

private theorem new_spec {l : Lockfile} (h : Pinned l.packages) :
    Tree.new l ≠ .panic ∧
    ((∃ t, Tree.new l = .ok t) ↔ ∀ p ∈ l.packages, ∀ d ∈ p.dependencies, ∃ q ∈ l.packages, NamesPkg d q) ∧
    ∀ t, Tree.new l = .ok t → t.graph.nodes = l.packages ∧ t.nodes = populateNodes l.packages 0 [] ∧
      t.graph.edges.map (fun e => (e.1, e.2.2)) =
        l.packages.flatMap (fun p => p.dependencies.map fun d => (nodeIdx t.nodes p, d)) ∧
      ∀ e ∈ t.graph.edges, NodeOf l.packages e.2.2 e.2.1 := by
  obtain ⟨h1, h2⟩ := pinned_ok h
  have hm : ∀ p ∈ l.packages, ∃ i, (populateNodes l.packages 0 []).get (Dependency.ofPackage p) = some i := by
    intro p hp
    obtain ⟨i, hi⟩ := nodeOf_exists ⟨p, hp, names_self p⟩
    exact ⟨i, (get_nodes h1 (h1 p hp) i).mpr hi⟩
  obtain ⟨a, b, c⟩ := addEdges_spec hm
  have e1 : (∀ p ∈ l.packages, ∀ d ∈ p.dependencies, ∃ q ∈ l.packages, NamesPkg d q) ↔
      ∃ es, addEdges (populateNodes l.packages 0 []) l.packages = .ok es := by
    rw [b]
    constructor
    · intro hh p hp d hd
      obtain ⟨i, hi⟩ := nodeOf_exists (hh p hp d hd)
      exact ⟨i, (get_nodes h1 (h2 p hp d hd) i).mpr hi⟩
    · intro hh p hp d hd
      obtain ⟨i, hi⟩ := hh p hp d hd
      obtain ⟨⟨q, hq, hn⟩, _⟩ := (get_nodes h1 (h2 p hp d hd) i).mp hi
      exact ⟨q, List.mem_of_getElem? hq, hn⟩
  rw [e1]
  unfold Tree.new
  simp only
  cases h3 : addEdges (populateNodes l.packages 0 []) l.packages with
  | panic => exact absurd h3 a
  | err => simp
  | ok es =>
    refine ⟨by simp, by simp, ?_⟩
    intro t ht
    simp only [Outcome.ok.injEq] at ht
    subst ht
    obtain ⟨c1, c2⟩ := c es h3
    refine ⟨rfl, rfl, c1, ?_⟩
    intro e he
    have hmem : (e.1, e.2.2) ∈ es.map (fun e => (e.1, e.2.2)) := List.mem_map.mpr ⟨e, he, rfl⟩
    rw [c1, List.mem_flatMap] at hmem
    obtain ⟨p, hp, hpd⟩ := hmem
    rw [List.mem_map] at hpd
    obtain ⟨d, hd, hde⟩ := hpd
    rw [Prod.mk.injEq] at hde
    have : DepOk e.2.2 := hde.2 ▸ h2 p hp d hd
    exact (get_nodes h1 this _).mp (c2 e he)

/-! ### C31 -/

/-- C31: building the tree of a lockfile never panics, and succeeds exactly when every dependency of every
package is in the lockfile. -/
theorem C31_new_ok_iff (l : Lockfile) (h : Pinned l.packages) :
    Tree.new l ≠ .panic ∧
    ((∃ t, Tree.new l = .ok t) ↔ ∀ p ∈ l.packages, ∀ d ∈ p.dependencies, ∃ q ∈ l.packages, NamesPkg d q) :=
  ⟨(new_spec h).1, (new_spec h).2.1⟩

/-- C31: the nodes are the packages in order; the map from dependencies finds the node a dependency stands for;
and there is one edge for each dependency of each package, in order, from the package's node to the node the
dependency stands for. -/
theorem C31_graph (l : Lockfile) (h : Pinned l.packages) (t : Tree) (ht : Tree.new l = .ok t) :
    t.graph.nodes = l.packages ∧
    (∀ d i, (∀ s, d.source = some s → (∃ r, s.kind = .git r) → s.precise ≠ none) →
      (t.nodes.get d = some i ↔ NodeOf l.packages d i)) ∧
    t.graph.edges.length = (l.packages.flatMap fun p => p.dependencies.map fun d => (p, d)).length ∧
    ∀ (k : Nat) p d, (l.packages.flatMap fun p => p.dependencies.map fun d => (p, d))[k]? = some (p, d) →
      ∃ i j, t.graph.edges[k]? = some (i, j, d) ∧
        NodeOf l.packages (Dependency.ofPackage p) i ∧ NodeOf l.packages d j := by
  obtain ⟨h1, h2⟩ := pinned_ok h
  obtain ⟨a1, a2, a3, a4⟩ := (new_spec h).2.2 t ht
  have e : l.packages.flatMap (fun p => p.dependencies.map fun d => (nodeIdx t.nodes p, d)) =
      (l.packages.flatMap fun p => p.dependencies.map fun d => (p, d)).map
        (fun x => (nodeIdx t.nodes x.1, x.2)) := by
    rw [List.map_flatMap]
    simp only [List.map_map]
    rfl
  rw [e] at a3
  refine ⟨a1, ?_, ?_, ?_⟩
  · intro d i hd
    rw [a2]
    exact get_nodes h1 (fun s hs hg => hd s hs hg) i
  · have := congrArg List.length a3
    simpa using this
  · intro k p d hk
    have hk' : (t.graph.edges.map (fun e => (e.1, e.2.2)))[k]? = some (nodeIdx t.nodes p, d) := by
      rw [a3, List.getElem?_map, hk]; rfl
    rw [List.getElem?_map, Option.map_eq_some_iff] at hk'
    obtain ⟨x, hx, hxe⟩ := hk'
    rw [Prod.mk.injEq] at hxe
    have hx4 := a4 x (List.mem_of_getElem? hx)
    refine ⟨x.1, x.2.1, by rw [hx, ← hxe.2], ?_, hxe.2 ▸ hx4⟩
    have hp : p ∈ l.packages := by
      have := List.mem_of_getElem? hk
      rw [List.mem_flatMap] at this
      obtain ⟨q, hq, hq'⟩ := this
      rw [List.mem_map] at hq'
      obtain ⟨_, _, hq'⟩ := hq'
      rw [Prod.mk.injEq] at hq'
      exact hq'.1 ▸ hq
    obtain ⟨i, hi⟩ := nodeOf_exists ⟨p, hp, names_self p⟩
    have := (get_nodes h1 (h1 p hp) i).mpr hi
    rw [hxe.1]
    unfold nodeIdx
    rw [a2, this]
    exact hi

private theorem flat_filter (f : Package → Nat) : ∀ (ps : List Package) (i c : Nat) (p : Package),
    ps[i]? = some p → (∀ k q, ps[k]? = some q → (f q = c ↔ k = i)) →
    ((ps.flatMap fun p => p.dependencies.map fun d => (f p, d)).filter fun x => x.1 == c).map (·.2) =
      p.dependencies
  | [], i, _, p, hp, _ => by simp at hp
  | q :: ps, i, c, p, hp, hu => by
    have hself : ∀ ds : List Dependency, ((ds.map fun d => (c, d)).filter fun x => x.1 == c).map (·.2) = ds := by
      intro ds; induction ds with
      | nil => rfl
      | cons d ds ih => simp [ih]
    have hother : ∀ (n : Nat), n ≠ c → ∀ ds : List Dependency,
        ((ds.map fun d => (n, d)).filter fun x => x.1 == c).map (·.2) = [] := by
      intro n hn ds; induction ds with
      | nil => rfl
      | cons d ds ih => simp [hn]
    rw [List.flatMap_cons, List.filter_append, List.map_append]
    cases i with
    | zero =>
      simp only [List.getElem?_cons_zero, Option.some.injEq] at hp
      subst hp
      rw [(hu 0 q rfl).mpr rfl, hself]
      have : (ps.flatMap fun p => p.dependencies.map fun d => (f p, d)).filter (fun x => x.1 == c) = [] := by
        rw [List.filter_eq_nil_iff]
        intro x hx
        rw [List.mem_flatMap] at hx
        obtain ⟨r, hr, hx⟩ := hx
        rw [List.mem_map] at hx
        obtain ⟨d, _, rfl⟩ := hx
        obtain ⟨k, hk⟩ := List.getElem?_of_mem hr
        have := (hu (k + 1) r hk)
        simp only [beq_iff_eq]
        intro hf
        have := this.mp hf
        omega
      rw [this]
      simp
    | succ i =>
      rw [hother (f q) (fun hf => by have := (hu 0 q rfl).mp hf; omega), List.nil_append]
      apply flat_filter f ps i c p hp
      intro k r hk
      rw [hu (k + 1) r hk]
      omega

/-- C31: in a lockfile without two entries for one package, the edges out of the node of the `i`-th package are
its dependencies, in order, and there is an edge from the `i`-th to the `j`-th package exactly if the former
has a dependency naming the latter. -/
theorem C31_edges (l : Lockfile) (h : Pinned l.packages)
    (hd : ∀ (i j : Nat) p q, l.packages[i]? = some p → l.packages[j]? = some q →
      NamesPkg (Dependency.ofPackage p) q → i = j)
    (t : Tree) (ht : Tree.new l = .ok t) (i : Nat) (p : Package) (hp : l.packages[i]? = some p) :
    (t.graph.edges.filter fun e => e.1 == i).map (·.2.2) = p.dependencies ∧
    ∀ (j : Nat) q, l.packages[j]? = some q →
      ((∃ d, (i, j, d) ∈ t.graph.edges) ↔ ∃ d ∈ p.dependencies, NamesPkg d q) := by
  obtain ⟨h1, h2⟩ := pinned_ok h
  obtain ⟨a1, a2, a3, a4⟩ := (new_spec h).2.2 t ht
  have hidx : ∀ (k : Nat) q, l.packages[k]? = some q → nodeIdx t.nodes q = k := by
    intro k q hk
    obtain ⟨n, hn⟩ := nodeOf_exists ⟨q, List.mem_of_getElem? hk, names_self q⟩
    have hg := (get_nodes h1 (h1 q (List.mem_of_getElem? hk)) n).mpr hn
    unfold nodeIdx
    rw [a2, hg]
    obtain ⟨⟨r, hr, hnr⟩, _⟩ := hn
    exact (hd k n q r hk hr hnr).symm
  have hout : (t.graph.edges.filter fun e => e.1 == i).map (·.2.2) = p.dependencies := by
    have e1 : (t.graph.edges.filter fun e => e.1 == i).map (·.2.2) =
        ((t.graph.edges.map (fun e => (e.1, e.2.2))).filter fun x => x.1 == i).map (·.2) := by
      rw [List.filter_map, List.map_map]
      rfl
    rw [e1, a3]
    apply flat_filter (nodeIdx t.nodes) _ i i p hp
    intro k q hk
    rw [hidx k q hk]
  refine ⟨hout, ?_⟩
  intro j q hq
  have names_node : ∀ d ∈ p.dependencies, (NamesPkg d q ↔ NodeOf l.packages d j) := by
    intro d hdm
    have hdo := h2 p (List.mem_of_getElem? hp) d hdm
    constructor
    · intro hn
      obtain ⟨n, hnn⟩ := nodeOf_exists ⟨q, List.mem_of_getElem? hq, hn⟩
      have hnn' := hnn
      obtain ⟨⟨r, hr, hnr⟩, _⟩ := hnn
      have hqr : NamesPkg (Dependency.ofPackage q) r := by
        rw [names_iff] at hn hnr ⊢
        exact dep_trans (h1 q (List.mem_of_getElem? hq)) hdo (h1 r (List.mem_of_getElem? hr)) (dep_symm hn) hnr
      rw [hd j n q r hq hr hqr]
      exact hnn'
    · rintro ⟨⟨r, hr, hnr⟩, _⟩
      rw [hq] at hr
      cases hr
      exact hnr
  constructor
  · rintro ⟨d, he⟩
    have hdm : d ∈ p.dependencies := by
      rw [← hout, List.mem_map]
      exact ⟨(i, j, d), List.mem_filter.mpr ⟨he, by simp⟩, rfl⟩
    exact ⟨d, hdm, (names_node d hdm).mpr (a4 _ he)⟩
  · rintro ⟨d, hdm, hn⟩
    have hdm' := hdm
    rw [← hout, List.mem_map] at hdm'
    obtain ⟨e, he, hed⟩ := hdm'
    rw [List.mem_filter, beq_iff_eq] at he
    refine ⟨d, ?_⟩
    have := a4 e he.1
    rw [hed] at this
    have hj := nodeOf_unique this ((names_node d hdm).mp hn)
    rw [← hj, ← he.2, ← hed]
    exact he.1

/-- C31: the roots are, by increasing index, exactly the nodes no dependency stands for. -/
theorem C31_roots (l : Lockfile) (h : Pinned l.packages) (t : Tree) (ht : Tree.new l = .ok t) :
    t.roots.Pairwise (· < ·) ∧
    ∀ i, i ∈ t.roots ↔ i < l.packages.length ∧
      ∀ q ∈ l.packages, ∀ d ∈ q.dependencies, ¬ NodeOf l.packages d i := by
  obtain ⟨a1, a2, a3, a4⟩ := (new_spec h).2.2 t ht
  refine ⟨List.Pairwise.filter _ List.pairwise_lt_range, ?_⟩
  intro i
  unfold Tree.roots
  rw [List.mem_filter, List.mem_range, a1]
  refine and_congr_right fun _ => ?_
  rw [Bool.not_eq_true', List.any_eq_false]
  constructor
  · intro hh q hq d hd hn
    have : (nodeIdx t.nodes q, d) ∈ t.graph.edges.map (fun e => (e.1, e.2.2)) := by
      rw [a3, List.mem_flatMap]
      exact ⟨q, hq, List.mem_map.mpr ⟨d, hd, rfl⟩⟩
    rw [List.mem_map] at this
    obtain ⟨e, he, hee⟩ := this
    rw [Prod.mk.injEq] at hee
    have h4 := a4 e he
    rw [hee.2] at h4
    exact hh e he (by rw [nodeOf_unique h4 hn]; simp)
  · intro hh e he hei
    rw [beq_iff_eq] at hei
    have : (e.1, e.2.2) ∈ t.graph.edges.map (fun e => (e.1, e.2.2)) := List.mem_map.mpr ⟨e, he, rfl⟩
    rw [a3, List.mem_flatMap] at this
    obtain ⟨q, hq, hqd⟩ := this
    rw [List.mem_map] at hqd
    obtain ⟨d, hd, hde⟩ := hqd
    rw [Prod.mk.injEq] at hde
    refine hh q hq d hd ?_
    rw [hde.2, ← hei]
    exact a4 e he

/-! ### C32 -/

/-- The graph a tree has: its edges join its nodes. -/
private theorem edges_in_range {l : Lockfile} (h : Pinned l.packages) {t : Tree} (ht : Tree.new l = .ok t) :
    ∀ e ∈ t.graph.edges, e.1 < t.graph.nodes.length ∧ e.2.1 < t.graph.nodes.length := by
  obtain ⟨a1, _, a3, a4⟩ := C31_graph l h t ht
  intro e he
  rw [a1]
  obtain ⟨k, hk⟩ := List.getElem?_of_mem he
  have hlt : k < (l.packages.flatMap fun p => p.dependencies.map fun d => (p, d)).length := by
    rw [← a3]; exact (List.getElem?_eq_some_iff.mp hk).1
  obtain ⟨i, j, hij, hi, hj⟩ := a4 k _ _ (List.getElem?_eq_getElem hlt)
  rw [hk] at hij
  cases hij
  exact ⟨nodeOf_lt hi, nodeOf_lt hj⟩

/-- C32: rendering ends on every graph whose edges join its nodes (cyclic ones included), from every node and in
both directions, and prints this tree: the start node at the top; under the first occurrence of every node its
neighbours, each one level deeper, in the order the graph lists them; nothing under later occurrences.  Hence
the printed nodes are exactly those reachable, and the number of lines is one more than the number of edges at
the reachable nodes. -/
theorem C32_render (g : Graph) (hg : ∀ e ∈ g.edges, e.1 < g.nodes.length ∧ e.2.1 < g.nodes.length)
    (dir : Direction) (start : Nat) (hs : start < g.nodes.length) :
    ∃ ls cs, g.renderLines dir start = some ls ∧
      ls.map (fun l => (l.levels, l.node)) = ([], start) :: Forest.lines [] cs ∧
      ExpandedOnce (g.neighbours dir) ((start, cs) :: cs.occurrences) ∧
      (∀ i, i ∈ ls.map Line.node ↔ Reach (g.neighbours dir) start i) ∧
      ∃ ex : List Nat, ex.Nodup ∧ (∀ i, i ∈ ex ↔ Reach (g.neighbours dir) start i) ∧
        ls.length = 1 + (ex.map fun i => (g.neighbours dir i).length).sum := by
  have hnb : ∀ i < g.nodes.length, ∀ j ∈ g.neighbours dir i, j < g.nodes.length := by
    intro i _ j hj
    unfold Graph.neighbours at hj
    cases dir
    · simp only [List.mem_map, List.mem_reverse, List.mem_filter] at hj
      obtain ⟨e, he, rfl⟩ := hj
      exact (hg e he.1).2
    · simp only [List.mem_map, List.mem_reverse, List.mem_filter] at hj
      obtain ⟨e, he, rfl⟩ := hj
      exact (hg e he.1).1
  have hu : unvisited g.nodes.length [] < g.nodes.length + 1 := by
    unfold unvisited
    exact Nat.lt_succ_of_le (Nat.le_trans (List.length_filter_le _ _) (by simp))
  obtain ⟨cs, vis', h1, h2, h3⟩ := printNode_ok hnb (g.nodes.length + 1) [] [] start hs hu
  have hexp : ExpandedOnce (g.neighbours dir) ((start, cs) :: cs.occurrences) := by
    intro a i c b e
    have := h2 a i c b e
    exact ⟨this.1 (by simp), fun h => this.2 (Or.inr h)⟩
  refine ⟨{ levels := [], node := start } :: toLines (cs.lines []), cs, ?_, ?_, hexp, ?_, ?_⟩
  · unfold Graph.renderLines
    rw [h1]
    rfl
  · simp only [List.map_cons, toLines, List.map_map]
    congr 1
    exact List.map_id _
  · intro i
    rw [← reach_iff hexp i]
    simp only [List.map_cons, toLines, List.map_map]
    have := lines_nodes [] cs
    rw [← this]
    exact Iff.rfl
  · obtain ⟨ex, e1, e2, e3⟩ := exp_sum _ _ h2
    refine ⟨ex, e1, ?_, ?_⟩
    · intro i
      rw [e2, ← reach_iff hexp i]
      simp
    · have := occ_length (Forest.cons start cs .nil)
      simp only [Forest.occurrences, Forest.roots, List.append_nil, List.length_cons, List.length_nil] at this
      rw [e3] at this
      simp only [List.length_cons, toLines, List.length_map, lines_length]
      omega

private theorem mem_out {g : Graph} {i j : Nat} :
    j ∈ g.neighbours .outgoing i ↔ ∃ d, (i, j, d) ∈ g.edges := by
  simp only [Graph.neighbours, List.mem_map, List.mem_reverse, List.mem_filter, beq_iff_eq]
  constructor
  · rintro ⟨⟨a, b, d⟩, ⟨he, rfl⟩, rfl⟩; exact ⟨d, he⟩
  · rintro ⟨d, he⟩; exact ⟨_, ⟨he, rfl⟩, rfl⟩

private theorem mem_in {g : Graph} {i j : Nat} :
    j ∈ g.neighbours .incoming i ↔ ∃ d, (j, i, d) ∈ g.edges := by
  simp only [Graph.neighbours, List.mem_map, List.mem_reverse, List.mem_filter, beq_iff_eq]
  constructor
  · rintro ⟨⟨a, b, d⟩, ⟨he, rfl⟩, rfl⟩; exact ⟨d, he⟩
  · rintro ⟨d, he⟩; exact ⟨_, ⟨he, rfl⟩, rfl⟩

/-- A step at the front of a chain of dependencies. -/
private theorem dependsOn_head {ps : List Package} {i j k : Nat} {p q : Package} {d : Dependency}
    (hi : ps[i]? = some p) (hj : ps[j]? = some q) (hd : d ∈ p.dependencies) (hn : NamesPkg d q)
    (h : DependsOn ps j k) : DependsOn ps i k := by
  induction h with
  | refl => exact DependsOn.step .refl hi hj hd hn
  | step _ h1 h2 h3 h4 ih => exact DependsOn.step ih h1 h2 h3 h4

/-- C32, for lockfiles without two entries for one package: rendering downwards prints exactly the packages the
start node depends on, directly or indirectly; rendering upwards exactly those that depend on it. -/
theorem C32_prints (l : Lockfile) (h : Pinned l.packages)
    (hd : ∀ (i j : Nat) p q, l.packages[i]? = some p → l.packages[j]? = some q →
      NamesPkg (Dependency.ofPackage p) q → i = j)
    (t : Tree) (ht : Tree.new l = .ok t) (start : Nat) (hs : start < l.packages.length) :
    (∃ ls, t.graph.renderLines .outgoing start = some ls ∧
      ∀ i, i ∈ ls.map Line.node ↔ DependsOn l.packages start i) ∧
    (∃ ls, t.graph.renderLines .incoming start = some ls ∧
      ∀ i, i ∈ ls.map Line.node ↔ DependsOn l.packages i start) := by
  have a1 := (C31_graph l h t ht).1
  have hr := edges_in_range h ht
  have hs' : start < t.graph.nodes.length := by rw [a1]; exact hs
  have hedge : ∀ i j, (∃ d, (i, j, d) ∈ t.graph.edges) ↔
      ∃ p q d, l.packages[i]? = some p ∧ l.packages[j]? = some q ∧ d ∈ p.dependencies ∧ NamesPkg d q := by
    intro i j
    constructor
    · rintro ⟨d, he⟩
      have hlt := hr _ he
      rw [a1] at hlt
      have hi := List.getElem?_eq_getElem hlt.1
      have hj := List.getElem?_eq_getElem hlt.2
      obtain ⟨d', hd', hn⟩ := ((C31_edges l h hd t ht i _ hi).2 j _ hj).mp ⟨d, he⟩
      exact ⟨_, _, d', hi, hj, hd', hn⟩
    · rintro ⟨p, q, d, hi, hj, hdm, hn⟩
      exact ((C31_edges l h hd t ht i p hi).2 j q hj).mpr ⟨d, hdm, hn⟩
  refine ⟨?_, ?_⟩
  · obtain ⟨ls, _, h1, _, _, h4, _⟩ := C32_render t.graph hr .outgoing start hs'
    refine ⟨ls, h1, fun i => (h4 i).trans ⟨fun hre => ?_, fun hde => ?_⟩⟩
    · induction hre with
      | refl => exact .refl
      | step _ hk ih =>
        obtain ⟨p, q, d, x1, x2, x3, x4⟩ := (hedge _ _).mp (mem_out.mp hk)
        exact .step ih x1 x2 x3 x4
    · induction hde with
      | refl => exact .refl
      | step _ x1 x2 x3 x4 ih => exact .step ih (mem_out.mpr ((hedge _ _).mpr ⟨_, _, _, x1, x2, x3, x4⟩))
  · obtain ⟨ls, _, h1, _, _, h4, _⟩ := C32_render t.graph hr .incoming start hs'
    refine ⟨ls, h1, fun i => (h4 i).trans ⟨fun hre => ?_, fun hde => ?_⟩⟩
    · induction hre with
      | refl => exact .refl
      | step _ hk ih =>
        obtain ⟨p, q, d, x1, x2, x3, x4⟩ := (hedge _ _).mp (mem_in.mp hk)
        exact dependsOn_head x1 x2 x3 x4 ih
    · have key : ∀ j, DependsOn l.packages i j → Reach (t.graph.neighbours .incoming) j i := by
        intro j hj
        induction hj with
        | refl => exact .refl
        | step _ x1 x2 x3 x4 ih =>
          exact Reach.of (.step .refl (mem_in.mpr ((hedge _ _).mpr ⟨_, _, _, x1, x2, x3, x4⟩))) ih
      exact key start hde

/-- C32: the bound on the recursion depth does not matter: rendering with more depth gives the same lines. -/
theorem C32_depth_irrelevant (g : Graph) (dir : Direction) (start : Nat) (k : Nat) (ls : List Line)
    (h : g.renderLines dir start = some ls) :
    (printNode (g.neighbours dir) (g.nodes.length + 1 + k) [] [] start).map (·.1) = some ls := by
  unfold Graph.renderLines at h
  rw [Option.map_eq_some_iff] at h ⊢
  obtain ⟨x, hx, hl⟩ := h
  exact ⟨x, printNode_mono _ k _ _ _ _ hx, hl⟩

/-- C32: rendering the tree of a lockfile from any of its nodes writes one line of text for each line of the
printed tree: the drawing, then the package's name and version (and, in exact form, its checksum or source). -/
theorem C32_render_text (C : Codec) (l : Lockfile) (h : Pinned l.packages) (t : Tree) (ht : Tree.new l = .ok t)
    (start : Nat) (hs : start < l.packages.length) (dir : Direction) (exact : Bool) :
    ∃ ls ps, t.graph.renderLines dir start = some ls ∧ ls.length = ps.length ∧
      (∀ (k : Nat) (line : Line), ls[k]? = some line → ∃ p, l.packages[line.node]? = some p ∧ ps[k]? = some p) ∧
      t.render C start dir exact =
        .ok ((List.zipWith (fun (line : Line) p => lineText C exact p line.levels) ls ps).flatten) := by
  have hr := edges_in_range h ht
  have a1 := (C31_graph l h t ht).1
  obtain ⟨ls, cs, h1, _, _, h4, _⟩ := C32_render t.graph hr dir start (by rw [a1]; exact hs)
  have hlt : ∀ x ∈ ls, x.node < l.packages.length := by
    intro x hx
    have := (h4 x.node).mp (List.mem_map.mpr ⟨x, hx, rfl⟩)
    cases this with
    | refl => exact hs
    | step _ hk =>
      rw [← a1]
      unfold Graph.neighbours at hk
      cases dir
      · simp only [List.mem_map, List.mem_reverse, List.mem_filter] at hk
        obtain ⟨e, he, he'⟩ := hk
        rw [← he']; exact (hr e he.1).2
      · simp only [List.mem_map, List.mem_reverse, List.mem_filter] at hk
        obtain ⟨e, he, he'⟩ := hk
        rw [← he']; exact (hr e he.1).1
  have key : ∀ ls : List Line, (∀ x ∈ ls, x.node < l.packages.length) → ∃ ps, ls.length = ps.length ∧
      (∀ (k : Nat) (line : Line), ls[k]? = some line → ∃ p, l.packages[line.node]? = some p ∧ ps[k]? = some p) ∧
      (ls.flatMap fun x =>
        match t.graph.nodes[x.node]? with
        | some p => lineText C exact p x.levels
        | none => []) = (List.zipWith (fun (line : Line) p => lineText C exact p line.levels) ls ps).flatten := by
    intro ls
    induction ls with
    | nil => intro _; exact ⟨[], rfl, by simp, by simp⟩
    | cons x ls ih =>
      intro hx
      obtain ⟨ps, b1, b2, b3⟩ := ih fun y hy => hx y (by simp [hy])
      have hxl := hx x (by simp)
      refine ⟨l.packages[x.node] :: ps, by simp [b1], ?_, ?_⟩
      · intro k line hk
        cases k with
        | zero =>
          simp only [List.getElem?_cons_zero, Option.some.injEq] at hk
          subst hk
          exact ⟨l.packages[x.node], List.getElem?_eq_getElem hxl, rfl⟩
        | succ k => exact b2 k line hk
      · rw [List.flatMap_cons, List.zipWith_cons_cons, List.flatten_cons, b3]
        congr 1
        rw [a1, List.getElem?_eq_getElem hxl]
  obtain ⟨ps, b1, b2, b3⟩ := key ls hlt
  refine ⟨ls, ps, h1, b1, b2, ?_⟩
  unfold Tree.render
  rw [h1]
  simp only
  rw [if_pos ?_]
  · exact congrArg Outcome.ok b3
  · rw [List.all_eq_true]
    intro x hx
    rw [a1]
    exact decide_eq_true (hlt x hx)

/-- What a line says about a package: name and version; in exact form also the checksum, else the source, else
`inexact`. -/
def labelOf (C : Codec) (exact : Bool) (p : Package) : Str :=
  p.name ++ [' '] ++ C.showVersion p.version ++
    if exact then
      [' '] ++ (match p.checksum, p.source with
        | some c, _ => "checksum:".toList ++ c.show
        | none, some s => s.asUrl false
        | none, none => "inexact".toList)
    else []

private theorem flatMap_congr' {α β : Type} {f g : α → List β} : ∀ {l : List α}, (∀ x ∈ l, f x = g x) →
    l.flatMap f = l.flatMap g
  | [], _ => rfl
  | a :: l, h => by
    rw [List.flatMap_cons, List.flatMap_cons, h a (by simp), flatMap_congr' fun x hx => h x (by simp [hx])]

private theorem linePrefix_append (lv : List Bool) (b : Bool) :
    linePrefix (lv ++ [b]) = lv.flatMap (fun c => if c then "│   ".toList else "    ".toList) ++
      if b then "├── ".toList else "└── ".toList := by
  unfold linePrefix
  rw [List.getLast?_concat]
  simp only [List.dropLast_concat]
  congr 1
  · congr 1
    funext c
    cases c <;> rfl
  · cases b <;> rfl

private theorem draw_eq (label : Nat → Str) : ∀ (f : Forest) (lv : List Bool),
    (f.lines lv).flatMap (fun x => linePrefix x.1 ++ label x.2 ++ ['\n']) =
      f.draw label (lv.flatMap fun c => if c then "│   ".toList else "    ".toList)
  | .nil, _ => rfl
  | .cons i cs rest, lv => by
    have h1 := draw_eq label cs (lv ++ [rest.more])
    have h2 := draw_eq label rest lv
    rw [List.flatMap_append] at h1
    unfold Forest.lines Forest.draw
    simp only [List.flatMap_cons, List.flatMap_append]
    rw [h2, h1, linePrefix_append]
    simp only [List.flatMap_cons, List.flatMap_nil, List.append_nil, List.append_assoc]

/-- C32: rendering the tree of a lockfile from any of its nodes writes the node's package and, under it, the
drawing of a forest in which every package is expanded at its first occurrence only, with exactly its
neighbours. -/
theorem C32_drawing (C : Codec) (l : Lockfile) (h : Pinned l.packages) (t : Tree) (ht : Tree.new l = .ok t)
    (start : Nat) (hs : start < l.packages.length) (dir : Direction) (exact : Bool) :
    ∃ (cs : Forest) (label : Nat → Str),
      (∀ i p, l.packages[i]? = some p → label i = labelOf C exact p) ∧
      ExpandedOnce (t.graph.neighbours dir) ((start, cs) :: cs.occurrences) ∧
      t.render C start dir exact = .ok (label start ++ ['\n'] ++ cs.draw label []) := by
  have hr := edges_in_range h ht
  have a1 := (C31_graph l h t ht).1
  obtain ⟨ls, cs, h1, h2, h3, h4, _⟩ := C32_render t.graph hr dir start (by rw [a1]; exact hs)
  have hlt : ∀ x ∈ ls, x.node < l.packages.length := by
    intro x hx
    have := (h4 x.node).mp (List.mem_map.mpr ⟨x, hx, rfl⟩)
    cases this with
    | refl => exact hs
    | step _ hk =>
      rw [← a1]
      unfold Graph.neighbours at hk
      cases dir
      · simp only [List.mem_map, List.mem_reverse, List.mem_filter] at hk
        obtain ⟨e, he, he'⟩ := hk
        rw [← he']; exact (hr e he.1).2
      · simp only [List.mem_map, List.mem_reverse, List.mem_filter] at hk
        obtain ⟨e, he, he'⟩ := hk
        rw [← he']; exact (hr e he.1).1
  let label : Nat → Str := fun i => (l.packages[i]?.map (labelOf C exact)).getD []
  refine ⟨cs, label, ?_, h3, ?_⟩
  · intro i p hp
    simp only [label, hp, Option.map_some, Option.getD_some]
  · unfold Tree.render
    rw [h1]
    simp only
    rw [if_pos ?_]
    · congr 1
      have hd := draw_eq label cs []
      rw [List.flatMap_nil] at hd
      rw [← hd]
      have : ls.flatMap (fun x => match t.graph.nodes[x.node]? with
          | some p => lineText C exact p x.levels
          | none => []) =
          (ls.map fun l => (l.levels, l.node)).flatMap (fun x => linePrefix x.1 ++ label x.2 ++ ['\n']) := by
        rw [List.flatMap_map]
        refine flatMap_congr' fun x hx => ?_
        have hxl := hlt x hx
        simp only [label]
        rw [a1, List.getElem?_eq_getElem hxl]
        simp only [Option.map_some, Option.getD_some]
        unfold lineText labelOf exactSpec
        cases exact
        · simp
        · cases l.packages[x.node].checksum <;> cases l.packages[x.node].source <;> simp
      refine Eq.trans this ?_
      rw [h2, List.flatMap_cons]
      rfl
    · rw [List.all_eq_true]
      intro x hx
      rw [a1]
      exact decide_eq_true (hlt x hx)

/-! ### A concrete case -/

/-- A workspace member `app` depending on `a` and `b`; `a` and `b` depend on each other (as dev-dependencies
allow) and `b` on a git package. -/
def cyclicLock : Lockfile :=
  { version := .v4,
    packages :=
      [{ name := "a".toList, version := ⟨1, 0, 0, [], []⟩, source := some SourceId.default,
         dependencies := [⟨"b".toList, ⟨2, 0, 0, [], []⟩, none⟩] },
       { name := "app".toList, version := ⟨0, 1, 0, [], []⟩,
         dependencies := [⟨"a".toList, ⟨1, 0, 0, [], []⟩, some SourceId.default⟩, ⟨"b".toList, ⟨2, 0, 0, [], []⟩, none⟩] },
       { name := "b".toList, version := ⟨2, 0, 0, [], []⟩,
         dependencies := [⟨"g".toList, ⟨0, 0, 3, [], []⟩, some (gitBranch "main" (some "abc"))⟩,
           ⟨"a".toList, ⟨1, 0, 0, [], []⟩, some SourceId.default⟩] },
       { name := "g".toList, version := ⟨0, 0, 3, [], []⟩, source := some (gitBranch "main" (some "abc")) }] }

/-- The tree of `cyclicLock`. -/
def cyclicTree : Outcome Tree := Tree.new cyclicLock

/-- Non-vacuity of C31 and C32: the hypotheses hold of `cyclicLock`. -/
example : Pinned cyclicLock.packages := by
  intro p hp
  simp only [cyclicLock, List.mem_cons, List.not_mem_nil, or_false] at hp
  rcases hp with rfl | rfl | rfl | rfl
  · refine ⟨fun s hs hg => ?_, fun d hd s hs hg => ?_⟩
    · cases hs; obtain ⟨r, hr⟩ := hg; cases hr
    · rw [List.mem_singleton] at hd; subst hd; cases hs
  · refine ⟨fun s hs hg => ?_, fun d hd s hs hg => ?_⟩
    · cases hs
    · simp only [List.mem_cons, List.not_mem_nil, or_false] at hd
      rcases hd with rfl | rfl <;> cases hs
      obtain ⟨r, hr⟩ := hg; cases hr
  · refine ⟨fun s hs hg => ?_, fun d hd s hs hg => ?_⟩
    · cases hs
    · simp only [List.mem_cons, List.not_mem_nil, or_false] at hd
      rcases hd with rfl | rfl <;> cases hs
      · exact nofun
      · obtain ⟨r, hr⟩ := hg; cases hr
  · refine ⟨fun s hs hg => ?_, fun d hd => by cases hd⟩
    cases hs; exact nofun

/-- Its edges and roots. -/
example : ∃ t, Tree.new cyclicLock = .ok t ∧
    t.graph.edges.map (fun e => (e.1, e.2.1)) = [(0, 2), (1, 0), (1, 2), (2, 3), (2, 0)] ∧ t.roots = [1] :=
  ⟨_, rfl, by decide +kernel, by decide +kernel⟩

/-- What is printed from `app`, and from `a` upwards. -/
example :
    (match Tree.new cyclicLock with
      | .ok t => t.render toyCodec 1 .outgoing false
      | _ => .err) =
    .ok ("app 0.1.0\n├── b 2.0.0\n│   ├── a 1.0.0\n│   │   └── b 2.0.0\n│   └── g 0.0.3\n└── a 1.0.0\n".toList) ∧
    (match Tree.new cyclicLock with
      | .ok t => t.render toyCodec 0 .incoming true
      | _ => .err) =
    .ok (("a 1.0.0 registry+https://github.com/rust-lang/crates.io-index\n" ++
      "├── b 2.0.0 inexact\n│   ├── app 0.1.0 inexact\n" ++
      "│   └── a 1.0.0 registry+https://github.com/rust-lang/crates.io-index\n└── app 0.1.0 inexact\n").toList) := by
  refine ⟨?_, ?_⟩ <;> decide +kernel

/-- A missing dependency is an error. -/
example : Tree.new { cyclicLock with packages := cyclicLock.packages.take 3 } = .err := by decide +kernel

end Verif.Props
