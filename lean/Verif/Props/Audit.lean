import Verif.Spec.Audit
import Verif.Props.Binary
import Verif.Props.CachedIndex
import Verif.Props.Tree
import Verif.Props.Id

/-!
# Theorems: `cargo audit` (C43, C44, C49, C50, C64)
-/

namespace Verif.Props

open Verif.Audit Verif.Adv Verif.Lock Verif.Semver Verif.Rep Verif.Bin Verif.Spec

/-! ## C43: the exit status -/

theorem mem_denyKinds (deny : List DenyOption) (k : WarningKind) :
    k ∈ deny.flatMap DenyOption.warningKinds ↔ Denied deny k := by
  simp only [List.mem_flatMap, Denied, Denies]
  refine exists_congr fun d => and_congr_right fun _ => ?_
  cases d <;> cases k <;> simp [DenyOption.warningKinds, DeniesDocumented]

theorem countWarnings_eq (p : Presenter) (r : Report) :
    p.countWarnings r =
      ((((r.warnings.filter fun e => p.denyKinds.contains e.1).map fun e => e.2.length).sum),
       (((r.warnings.filter fun e => !p.denyKinds.contains e.1).map fun e => e.2.length).sum)) := by
  unfold Presenter.countWarnings
  suffices h : ∀ (l : WarningInfo) (n m : Nat),
      l.foldl (fun n e => if p.denyKinds.contains e.1 then (n.1 + e.2.length, n.2) else (n.1, n.2 + e.2.length)) (n, m) =
        (n + ((l.filter fun e => p.denyKinds.contains e.1).map fun e => e.2.length).sum,
         m + ((l.filter fun e => !p.denyKinds.contains e.1).map fun e => e.2.length).sum) by
    simpa using h r.warnings 0 0
  intro l
  induction l with
  | nil => simp
  | cons e l ih =>
    intro n m
    rw [List.foldl_cons, List.filter_cons, List.filter_cons]
    by_cases h : p.denyKinds.contains e.1 = true
    · rw [if_pos h, if_pos h, ih, h]
      simp [Nat.add_assoc]
    · rw [if_neg h, if_neg h, ih]
      have : p.denyKinds.contains e.1 = false := by simpa using h
      rw [this]
      simp [Nat.add_assoc]

theorem shouldExit_iff (p : Presenter) (r : Report) :
    p.shouldExitWithFailure r = true ↔
      r.vulnerabilities.found = true ∨ ∃ k ws, (k, ws) ∈ r.warnings ∧ ws ≠ [] ∧ k ∈ p.denyKinds := by
  unfold Presenter.shouldExitWithFailure
  by_cases hf : r.vulnerabilities.found
  · simp [hf]
  · simp only [hf, Bool.false_eq_true, if_false, false_or]
    rw [countWarnings_eq]
    have key : ((r.warnings.filter fun e => p.denyKinds.contains e.1).map fun e => e.2.length).sum = 0 ↔
        ∀ k ws, (k, ws) ∈ r.warnings → k ∈ p.denyKinds → ws = [] := by
      induction r.warnings with
      | nil => simp
      | cons e l ih =>
        obtain ⟨k, ws⟩ := e
        rw [List.filter_cons]
        by_cases h : k ∈ p.denyKinds
        · have h' : p.denyKinds.contains k = true := by simpa using h
          rw [if_pos h', List.map_cons, List.sum_cons, Nat.add_eq_zero_iff, ih, List.length_eq_zero_iff]
          constructor
          · rintro ⟨h1, h2⟩ k' ws' hm hk
            rcases List.mem_cons.mp hm with e | hm
            · cases e; exact h1
            · exact h2 _ _ hm hk
          · intro hh
            exact ⟨hh k ws (by simp) h, fun k' ws' hm => hh k' ws' (by simp [hm])⟩
        · have h' : ¬ p.denyKinds.contains k = true := by simpa using h
          rw [if_neg h', ih]
          constructor
          · intro hh k' ws' hm hk
            rcases List.mem_cons.mp hm with e | hm
            · cases e; exact absurd hk h
            · exact hh _ _ hm hk
          · intro hh k' ws' hm
            exact hh k' ws' (by simp [hm])
    by_cases hs : ((r.warnings.filter fun e => p.denyKinds.contains e.1).map fun e => e.2.length).sum = 0
    · have := key.mp hs
      simp only [hs, ne_eq, not_true_eq_false, if_false, Bool.false_eq_true, false_iff]
      rintro ⟨k, ws, h1, h2, h3⟩
      exact h2 (this k ws h1 h3)
    · have := mt key.mpr hs
      simp only [hs, ne_eq, not_false_eq_true, if_true, true_iff]
      push Not at this
      obtain ⟨k, ws, h1, h2, h3⟩ := this
      exact ⟨k, ws, h1, h3, h2⟩

/-- **C43, decision.**  A report makes the run fail iff a vulnerability was found or there is a warning of a kind
that some deny option denies. -/
theorem C43_report_fails_iff (c : OutputConfig) (r : Report) :
    (Presenter.new c).shouldExitWithFailure r = true ↔
      r.vulnerabilities.found = true ∨ ∃ k ws, (k, ws) ∈ r.warnings ∧ ws ≠ [] ∧ Denied c.deny k := by
  rw [shouldExit_iff]
  simp only [Presenter.new, mem_denyKinds]

/-! ## C64: the terminal report -/

/-- The loop common to vulnerabilities and warnings. -/
def printItems (C : Codec) (t : Lock.Tree) : Presenter → List (Package × (Option Str → Item)) →
    Outcome (Presenter × List Item)
  | p, [] => .ok (p, [])
  | p, (pkg, mk) :: es =>
    match p.printTree C pkg t with
    | .ok (p', tree) =>
      match printItems C t p' es with
      | .ok (p'', items) => .ok (p'', mk tree :: items)
      | .err => .err
      | .panic => .panic
    | .err => .err
    | .panic => .panic

theorem printTree_same (C : Codec) (p p' : Presenter) (pkg : Package) (t : Lock.Tree) (o : Option Str)
    (h : p.printTree C pkg t = .ok (p', o)) : p' = { p with displayed := p'.displayed } := by
  unfold Presenter.printTree at h
  split at h
  · cases h; rfl
  · simp only at h
    split at h
    · cases h; rfl
    · split at h
      · cases h
      · split at h <;> cases h
        rfl

/-- The entry of a vulnerability and of a warning in the loop. -/
def vulnEntry (p : Presenter) (v : Vulnerability) : Package × (Option Str → Item) :=
  (v.package, fun tree => ⟨.inl v, true, p.presentFunctions v.affected v.package.version, tree⟩)

def warnEntry (p : Presenter) (w : Warning) : Package × (Option Str → Item) :=
  (w.package, fun tree => ⟨.inr w, p.denyKinds.contains w.kind, p.presentFunctions w.affected w.package.version, tree⟩)

theorem printVulns_eq (C : Codec) (t : Lock.Tree) (vs : List Vulnerability) (p : Presenter) :
    p.printVulns C t vs = printItems C t p (vs.map (vulnEntry p)) := by
  suffices h : ∀ (q : Presenter), q = { p with displayed := q.displayed } →
      q.printVulns C t vs = printItems C t q (vs.map (vulnEntry p)) from h p rfl
  induction vs with
  | nil => intro q _; rfl
  | cons v vs ih =>
    intro q hq
    unfold Presenter.printVulns
    simp only [List.map_cons, vulnEntry, printItems]
    cases e : q.printTree C v.package t with
    | err => rfl
    | panic => rfl
    | ok x =>
      obtain ⟨q', tree⟩ := x
      have h1 := printTree_same C q q' _ t tree e
      have h2 : q' = { p with displayed := q'.displayed } := by rw [h1, hq]
      simp only [ih q' h2]
      have h3 : q.presentFunctions v.affected v.package.version = p.presentFunctions v.affected v.package.version := by
        rw [hq]; rfl
      rw [h3]
      rfl

theorem printWarnings_eq (C : Codec) (t : Lock.Tree) (ws : List Warning) (p : Presenter) :
    p.printWarnings C t ws = printItems C t p (ws.map (warnEntry p)) := by
  suffices h : ∀ (q : Presenter), q = { p with displayed := q.displayed } →
      q.printWarnings C t ws = printItems C t q (ws.map (warnEntry p)) from h p rfl
  induction ws with
  | nil => intro q _; rfl
  | cons w ws ih =>
    intro q hq
    unfold Presenter.printWarnings
    simp only [List.map_cons, warnEntry, printItems]
    cases e : q.printTree C w.package t with
    | err => rfl
    | panic => rfl
    | ok x =>
      obtain ⟨q', tree⟩ := x
      have h1 := printTree_same C q q' _ t tree e
      have h2 : q' = { p with displayed := q'.displayed } := by rw [h1, hq]
      simp only [ih q' h2]
      have h3 : q.presentFunctions w.affected w.package.version = p.presentFunctions w.affected w.package.version := by
        rw [hq]; rfl
      have h4 : q.denyKinds = p.denyKinds := by rw [hq]
      rw [h3, h4]
      rfl

theorem printItems_append (C : Codec) (t : Lock.Tree) (a b : List (Package × (Option Str → Item))) (p : Presenter) :
    printItems C t p (a ++ b) =
      match printItems C t p a with
      | .ok (p1, i1) =>
        match printItems C t p1 b with
        | .ok (p2, i2) => .ok (p2, i1 ++ i2)
        | .err => .err
        | .panic => .panic
      | .err => .err
      | .panic => .panic := by
  induction a generalizing p with
  | nil =>
    simp only [List.nil_append, printItems]
    rcases printItems C t p b with ⟨p2, i2⟩ | _ | _ <;> rfl
  | cons e a ih =>
    obtain ⟨pkg, mk⟩ := e
    simp only [List.cons_append, printItems]
    rcases p.printTree C pkg t with ⟨p', tree⟩ | _ | _
    · simp only [ih]
      rcases printItems C t p' a with ⟨p1, i1⟩ | _ | _
      · simp only
        rcases printItems C t p1 b with ⟨p2, i2⟩ | _ | _ <;> rfl
      · rfl
      · rfl
    · rfl
    · rfl

theorem printTree_ok (C : Codec) (l : Lockfile) (hpin : Pinned l.packages) (t : Lock.Tree) (ht : Lock.Tree.new l = .ok t)
    (p : Presenter) (pkg : Package) (hp : pkg ∈ l.packages) :
    ∃ s i, NodeOf l.packages (Dependency.ofPackage pkg) i ∧ t.render C i .incoming false = .ok s ∧
      p.printTree C pkg t =
        if ∃ d ∈ p.displayed, (Dependency.ofPackage pkg).cmp d = .eq then .ok (p, none)
        else .ok ({ p with displayed := p.displayed ++ [Dependency.ofPackage pkg] },
                  if p.config.showTree then some s else none) := by
  obtain ⟨i, hi⟩ := nodeOf_exists (d := Dependency.ofPackage pkg) ⟨pkg, hp, names_self pkg⟩
  obtain ⟨ls, ps, -, -, -, hr⟩ := C32_render_text C l hpin t ht i (nodeOf_lt hi) .incoming false
  refine ⟨_, i, hi, hr, ?_⟩
  have hg : t.nodes.get (Dependency.ofPackage pkg) = some i :=
    ((C31_graph l hpin t ht).2.1 _ i (fun s hs hk => (hpin pkg hp).1 s hs hk)).mpr hi
  unfold Presenter.printTree
  simp only [List.any_eq_true, decide_eq_true_eq, hg, hr]
  split
  · rfl
  · cases p.config.showTree <;> rfl


/-- The `k`-th entry is the first about its package. -/
def FirstAbout (seen : List Dependency) (pkgs : List Package) (k : Nat) (pkg : Package) : Prop :=
  (∀ d ∈ seen, (Dependency.ofPackage pkg).cmp d ≠ .eq) ∧
  ∀ j < k, ∀ q, pkgs[j]? = some q → ¬ NamesPkg (Dependency.ofPackage pkg) q

theorem printItems_ok (C : Codec) (l : Lockfile) (hpin : Pinned l.packages) (t : Lock.Tree)
    (ht : Lock.Tree.new l = .ok t) (es : List (Package × (Option Str → Item)))
    (hes : ∀ e ∈ es, e.1 ∈ l.packages) (p : Presenter) (hd : ∀ d ∈ p.displayed, DepOk d) :
    ∃ p' items, printItems C t p es = .ok (p', items) ∧ p' = { p with displayed := p'.displayed } ∧
      (∀ d ∈ p'.displayed, DepOk d) ∧ items.length = es.length ∧
      ∀ (k : Nat) pkg mk, es[k]? = some (pkg, mk) → ∃ tree, items[k]? = some (mk tree) ∧
        ((p.config.showTree = true ∧ FirstAbout p.displayed (es.map Prod.fst) k pkg) →
          ∃ s i, tree = some s ∧ NodeOf l.packages (Dependency.ofPackage pkg) i ∧ t.render C i .incoming false = .ok s) ∧
        (¬ (p.config.showTree = true ∧ FirstAbout p.displayed (es.map Prod.fst) k pkg) → tree = none) := by
  induction es generalizing p with
  | nil => exact ⟨p, [], rfl, rfl, hd, rfl, by simp⟩
  | cons e es ih =>
    obtain ⟨pkg0, mk0⟩ := e
    have hp0 : pkg0 ∈ l.packages := hes (pkg0, mk0) (by simp)
    have hok0 : DepOk (Dependency.ofPackage pkg0) := (pinned_ok hpin).1 pkg0 hp0
    obtain ⟨s0, i0, hn0, hr0, he0⟩ := printTree_ok C l hpin t ht p pkg0 hp0
    by_cases hc : ∃ d ∈ p.displayed, (Dependency.ofPackage pkg0).cmp d = .eq
    · rw [if_pos hc] at he0
      obtain ⟨p', items, h1, h2, h3, h4, h5⟩ := ih (fun e he => hes e (by simp [he])) p hd
      refine ⟨p', mk0 none :: items, ?_, h2, h3, by simp [h4], ?_⟩
      · simp only [printItems, he0, h1]
      · intro k pkg mk hk
        cases k with
        | zero =>
          simp only [List.getElem?_cons_zero, Option.some.injEq, Prod.mk.injEq] at hk
          obtain ⟨rfl, rfl⟩ := hk
          refine ⟨none, by simp, fun h => ?_, fun _ => rfl⟩
          obtain ⟨d, hd1, hd2⟩ := hc
          exact absurd hd2 (h.2.1 d hd1)
        | succ k =>
          simp only [List.getElem?_cons_succ] at hk
          obtain ⟨tree, g1, g2, g3⟩ := h5 k pkg mk hk
          have hpk : pkg ∈ l.packages := hes (pkg, mk) (List.mem_cons_of_mem _ (List.mem_of_getElem? hk))
          have hiff : FirstAbout p.displayed (((pkg0, mk0) :: es).map Prod.fst) (k + 1) pkg ↔
              FirstAbout p.displayed (es.map Prod.fst) k pkg := by
            unfold FirstAbout
            constructor
            · rintro ⟨a, b⟩
              exact ⟨a, fun j hj q hq => b (j + 1) (by omega) q (by simpa using hq)⟩
            · rintro ⟨a, b⟩
              refine ⟨a, fun j hj q hq hn => ?_⟩
              cases j with
              | zero =>
                simp only [List.map_cons, List.getElem?_cons_zero, Option.some.injEq] at hq
                subst hq
                obtain ⟨d, hd1, hd2⟩ := hc
                exact a d hd1 (dep_trans ((pinned_ok hpin).1 pkg hpk) hok0 (hd d hd1) ((names_iff _ _).mp hn) hd2)
              | succ j => exact b j (by omega) q (by simpa using hq) hn
          exact ⟨tree, by simpa using g1, by rw [hiff]; exact g2, by rw [hiff]; exact g3⟩
    · rw [if_neg hc] at he0
      set p1 : Presenter := { p with displayed := p.displayed ++ [Dependency.ofPackage pkg0] } with hp1
      have hd1 : ∀ d ∈ p1.displayed, DepOk d := by
        intro d hd'
        rw [hp1] at hd'
        rcases List.mem_append.mp hd' with h | h
        · exact hd d h
        · rw [List.mem_singleton.mp h]; exact hok0
      obtain ⟨p', items, h1, h2, h3, h4, h5⟩ := ih (fun e he => hes e (by simp [he])) p1 hd1
      refine ⟨p', mk0 (if p.config.showTree then some s0 else none) :: items, ?_, h2, h3, by simp [h4], ?_⟩
      · simp only [printItems, he0, h1]
      · intro k pkg mk hk
        cases k with
        | zero =>
          simp only [List.getElem?_cons_zero, Option.some.injEq, Prod.mk.injEq] at hk
          obtain ⟨rfl, rfl⟩ := hk
          refine ⟨_, by rw [List.getElem?_cons_zero], fun h => ?_, fun h => ?_⟩
          · rw [if_pos h.1]; exact ⟨s0, i0, rfl, hn0, hr0⟩
          · rw [if_neg]
            intro hs
            refine h ⟨hs, fun d hd' he => hc ⟨d, hd', he⟩, fun j hj => by omega⟩
        | succ k =>
          simp only [List.getElem?_cons_succ] at hk
          obtain ⟨tree, g1, g2, g3⟩ := h5 k pkg mk hk
          have hiff : FirstAbout p.displayed (((pkg0, mk0) :: es).map Prod.fst) (k + 1) pkg ↔
              FirstAbout p1.displayed (es.map Prod.fst) k pkg := by
            unfold FirstAbout
            rw [hp1]
            constructor
            · rintro ⟨a, b⟩
              refine ⟨fun d hd' => ?_, fun j hj q hq => b (j + 1) (by omega) q (by simpa using hq)⟩
              rcases List.mem_append.mp hd' with h | h
              · exact a d h
              · rw [List.mem_singleton.mp h]
                intro he
                exact b 0 (by omega) pkg0 (by simp) ((names_iff _ _).mpr he)
            · rintro ⟨a, b⟩
              refine ⟨fun d hd' => a d (by simp [hd']), fun j hj q hq hn => ?_⟩
              cases j with
              | zero =>
                simp only [List.map_cons, List.getElem?_cons_zero, Option.some.injEq] at hq
                subst hq
                exact a _ (by simp) ((names_iff _ _).mp hn)
              | succ j => exact b j (by omega) q (by simpa using hq) hn
          exact ⟨tree, by simpa using g1, by rw [hiff]; exact g2, by rw [hiff]; exact g3⟩

open Classical in
/-- **C64.**  When the lockfile's dependency tree can be built and the report is about packages of the lockfile,
printing the report never panics.  The terminal lists every vulnerability in order, marked as an error, then every warning,
kind by kind, marked as an error exactly if its kind is denied; below a finding comes the inverse dependency tree of its
package, if trees are on and no earlier finding is about the same package, and only then; last come the totals. -/
theorem C64_terminal_report (C : Codec) (c : OutputConfig) (hc : c.format = .terminal) (r : Report) (l : Lockfile)
    (hpin : Pinned l.packages) (t : Lock.Tree) (ht : Lock.Tree.new l = .ok t)
    (hv : ∀ v ∈ r.vulnerabilities.list, v.package ∈ l.packages)
    (hw : ∀ e ∈ r.warnings, ∀ w ∈ e.2, w.package ∈ l.packages) :
    ∃ p' items, (Presenter.new c).printReport C r l =
        .ok (p', .terminal items (if r.vulnerabilities.found then some r.vulnerabilities.count else none)
          ((r.warnings.filter fun e => decide (Denied c.deny e.1)).map (·.2.length)).sum
          ((r.warnings.filter fun e => decide (¬ Denied c.deny e.1)).map (·.2.length)).sum) ∧
      items.map (·.finding) = r.vulnerabilities.list.map .inl ++ ((inOrder r.warnings).flatMap (·.2)).map .inr ∧
      (∀ i ∈ items, ∀ v, i.finding = .inl v → i.error = true) ∧
      (∀ i ∈ items, ∀ w, i.finding = .inr w → (i.error = true ↔ Denied c.deny w.kind)) ∧
      ∀ (k : Nat) item, items[k]? = some item →
        ((c.showTree = true ∧ ∀ j < k, ∀ it, items[j]? = some it →
            ¬ NamesPkg (Dependency.ofPackage item.package) it.package) →
          ∃ s i, item.tree = some s ∧ NodeOf l.packages (Dependency.ofPackage item.package) i ∧
            t.render C i .incoming false = .ok s) ∧
        (¬ (c.showTree = true ∧ ∀ j < k, ∀ it, items[j]? = some it →
            ¬ NamesPkg (Dependency.ofPackage item.package) it.package) → item.tree = none) := by
  set p := Presenter.new c with hp
  set ws := (inOrder r.warnings).flatMap (·.2) with hws
  have hwp : ∀ w ∈ ws, w.package ∈ l.packages := by
    intro w hm
    rw [hws, List.mem_flatMap] at hm
    obtain ⟨e, he, hwe⟩ := hm
    unfold inOrder at he
    rw [List.mem_filterMap] at he
    obtain ⟨k, -, hk⟩ := he
    rw [Option.map_eq_some_iff] at hk
    obtain ⟨x, hx, rfl⟩ := hk
    have : (k, x) ∈ r.warnings := by
      obtain ⟨l1, l2, h, -⟩ := List.lookup_eq_some_iff.mp hx
      rw [h]; simp
    exact hw _ this w hwe
  set es := r.vulnerabilities.list.map (vulnEntry p) ++ ws.map (warnEntry p) with hes
  have hesp : ∀ e ∈ es, e.1 ∈ l.packages := by
    intro e he
    rw [hes, List.mem_append, List.mem_map, List.mem_map] at he
    rcases he with ⟨v, h, rfl⟩ | ⟨w, h, rfl⟩
    · exact hv v h
    · exact hwp w h
  obtain ⟨p', items, h1, h2, -, h4, h5⟩ := printItems_ok C l hpin t ht es hesp p (by simp [hp, Presenter.new])
  have hget : ∀ (k : Nat) item, items[k]? = some item → ∃ pkg mk, es[k]? = some (pkg, mk) ∧ ∃ tree, item = mk tree := by
    intro k item hk
    have hlt : k < es.length := by
      rw [← h4]; exact (List.getElem?_eq_some_iff.mp hk).1
    refine ⟨es[k].1, es[k].2, by simp [hlt], ?_⟩
    obtain ⟨tree, ht', -⟩ := h5 k es[k].1 es[k].2 (by simp [hlt])
    rw [hk] at ht'
    exact ⟨tree, Option.some.inj ht'⟩
  have hentry : ∀ e ∈ es, ∀ tree, (e.2 tree).package = e.1 := by
    intro e he tree
    rw [hes, List.mem_append, List.mem_map, List.mem_map] at he
    rcases he with ⟨v, h, rfl⟩ | ⟨w, h, rfl⟩ <;> rfl
  have htree : ∀ e ∈ es, ∀ tree, (e.2 tree).tree = tree := by
    intro e he tree
    rw [hes, List.mem_append, List.mem_map, List.mem_map] at he
    rcases he with ⟨v, h, rfl⟩ | ⟨w, h, rfl⟩ <;> rfl
  refine ⟨p', items, ?_, ?_, ?_, ?_, ?_⟩
  · have hcf : p.config.format = .terminal := hc
    unfold Presenter.printReport
    simp only [hcf, ht]
    rw [hes, printItems_append] at h1
    rw [printVulns_eq]
    revert h1
    rcases e1 : printItems C t p (r.vulnerabilities.list.map (vulnEntry p)) with ⟨p1, i1⟩ | _ | _
    · simp only
      have hp1 : ws.map (warnEntry p) = ws.map (warnEntry p1) := by
        have : p1 = { p with displayed := p1.displayed } := by
          obtain ⟨p1', i1', g1, g2, -⟩ := printItems_ok C l hpin t ht (r.vulnerabilities.list.map (vulnEntry p))
            (fun e he => hesp e (by rw [hes]; simp [he])) p (by simp [hp, Presenter.new])
          rw [e1] at g1; cases g1; exact g2
        refine List.map_congr_left fun w _ => ?_
        unfold warnEntry
        rw [this]
        rfl
      rw [hp1, ← printWarnings_eq]
      rcases p1.printWarnings C t ws with ⟨p2, i2⟩ | _ | _
      · intro h1
        simp only [Outcome.ok.injEq, Prod.mk.injEq] at h1
        obtain ⟨rfl, rfl⟩ := h1
        simp only [countWarnings_eq]
        have hdk : p2.denyKinds = c.deny.flatMap DenyOption.warningKinds := by rw [h2]; rfl
        have hD : ∀ k, (c.deny.flatMap DenyOption.warningKinds).contains k = decide (Denied c.deny k) := by
          intro k
          rw [Bool.eq_iff_iff, decide_eq_true_iff, ← mem_denyKinds, List.contains_iff_mem]
        simp only [hdk, hD, decide_not]
      · intro h1; cases h1
      · intro h1; cases h1
    · intro h1; cases h1
    · intro h1; cases h1
  · have hgo : items.map (·.finding) = es.map (fun e => (e.2 none).finding) := by
      apply List.ext_getElem?
      intro k
      rw [List.getElem?_map, List.getElem?_map]
      cases hk : es[k]? with
      | none =>
        have : es.length ≤ k := List.getElem?_eq_none_iff.mp hk
        rw [List.getElem?_eq_none_iff.mpr (by omega)]; rfl
      | some e =>
        obtain ⟨pkg, mk⟩ := e
        obtain ⟨tree, g1, -⟩ := h5 k pkg mk hk
        rw [g1]
        have he := List.mem_of_getElem? hk
        rw [hes, List.mem_append, List.mem_map, List.mem_map] at he
        rcases he with ⟨v, h, e⟩ | ⟨w, h, e⟩ <;> (cases e; rfl)
    rw [hgo, hes, List.map_append, List.map_map, List.map_map]
    rfl
  · intro i hi v hiv
    obtain ⟨k, hk⟩ := List.mem_iff_getElem?.mp hi
    obtain ⟨pkg, mk, g, tree, rfl⟩ := hget k i hk
    have he := List.mem_of_getElem? g
    rw [hes, List.mem_append, List.mem_map, List.mem_map] at he
    rcases he with ⟨v, h, e⟩ | ⟨w, h, e⟩
    · cases e; rfl
    · cases e; cases hiv
  · intro i hi w hiw
    obtain ⟨k, hk⟩ := List.mem_iff_getElem?.mp hi
    obtain ⟨pkg, mk, g, tree, rfl⟩ := hget k i hk
    have he := List.mem_of_getElem? g
    rw [hes, List.mem_append, List.mem_map, List.mem_map] at he
    rcases he with ⟨v, h, e⟩ | ⟨w', h, e⟩
    · cases e; cases hiw
    · cases e
      cases hiw
      rw [← mem_denyKinds]
      exact List.contains_iff_mem
  · intro k item hk
    obtain ⟨pkg, mk, g, -⟩ := hget k item hk
    obtain ⟨tree, g1, g2, g3⟩ := h5 k pkg mk g
    rw [hk] at g1
    cases g1
    have he := List.mem_of_getElem? g
    rw [show (mk tree).package = pkg from hentry _ he tree, show (mk tree).tree = tree from htree _ he tree]
    have hiff : FirstAbout p.displayed (es.map Prod.fst) k pkg ↔
        ∀ j < k, ∀ it, items[j]? = some it → ¬ NamesPkg (Dependency.ofPackage pkg) it.package := by
      unfold FirstAbout
      constructor
      · rintro ⟨-, b⟩ j hj it hit
        obtain ⟨pkg', mk', g', tree', rfl⟩ := hget j it hit
        rw [show (mk' tree').package = pkg' from hentry _ (List.mem_of_getElem? g') tree']
        exact b j hj pkg' (by rw [List.getElem?_map, g']; rfl)
      · intro b
        refine ⟨by simp [hp, Presenter.new], fun j hj q hq => ?_⟩
        rw [List.getElem?_map, Option.map_eq_some_iff] at hq
        obtain ⟨⟨pkg', mk'⟩, g', rfl⟩ := hq
        obtain ⟨tree', g1', -⟩ := h5 j pkg' mk' g'
        have := b j hj _ g1'
        rwa [show (mk' tree').package = pkg' from hentry _ (List.mem_of_getElem? g') tree'] at this
    rw [hiff] at g2 g3
    exact ⟨g2, g3⟩


/-! ## C44: configuration and command line -/

theorem mem_insertIfAbsent (l : List Informational) (i j : Informational) :
    i ∈ insertIfAbsent l j ↔ i ∈ l ∨ i = j := by
  unfold insertIfAbsent
  by_cases h : j ∈ l
  · rw [if_pos (by simpa using h)]
    constructor
    · exact Or.inl
    · rintro (h' | rfl)
      · exact h'
      · exact h
  · rw [if_neg (by simpa using h)]
    simp

theorem mem_denyLoop (l : List Informational) (ds : List DenyOption) (i : Informational) :
    i ∈ denyLoop l ds ↔ i ∈ l ∨ ∃ d ∈ ds, ∃ k, DeniesDocumented d k ∧ WarnsAs i k := by
  have hw : (∃ k, DeniesDocumented .warnings k ∧ WarnsAs i k) ↔ i = .notice ∨ i = .unmaintained ∨ i = .unsound := by
    constructor
    · rintro ⟨k, -, h⟩; cases h <;> simp
    · rintro (rfl | rfl | rfl)
      · exact ⟨_, trivial, .notice⟩
      · exact ⟨_, trivial, .unmaintained⟩
      · exact ⟨_, trivial, .unsound⟩
  have hu : (∃ k, DeniesDocumented .unmaintained k ∧ WarnsAs i k) ↔ i = .unmaintained := by
    constructor
    · rintro ⟨k, h, h'⟩; cases h' <;> simp_all [DeniesDocumented]
    · rintro rfl; exact ⟨_, rfl, .unmaintained⟩
  have hs : (∃ k, DeniesDocumented .unsound k ∧ WarnsAs i k) ↔ i = .unsound := by
    constructor
    · rintro ⟨k, h, h'⟩; cases h' <;> simp_all [DeniesDocumented]
    · rintro rfl; exact ⟨_, rfl, .unsound⟩
  have hy : ¬ ∃ k, DeniesDocumented .yanked k ∧ WarnsAs i k := by
    rintro ⟨k, h, h'⟩; cases h' <;> simp_all [DeniesDocumented]
  have hall : ∀ d, (∃ k, DeniesDocumented d k ∧ WarnsAs i k) → i = .notice ∨ i = .unmaintained ∨ i = .unsound := by
    rintro d ⟨k, -, h⟩; cases h <;> simp
  induction ds generalizing l with
  | nil => simp [denyLoop]
  | cons d ds ih =>
    simp only [List.mem_cons, exists_eq_or_imp]
    cases d with
    | warnings =>
      simp only [denyLoop, mem_insertIfAbsent, hw]
      constructor
      · tauto
      · rintro (h | h | ⟨d, -, h⟩)
        · tauto
        · tauto
        · have := hall d h; tauto
    | unmaintained => simp only [denyLoop, ih, mem_insertIfAbsent, hu, or_assoc]
    | unsound => simp only [denyLoop, ih, mem_insertIfAbsent, hs, or_assoc]
    | yanked => simp only [denyLoop, ih, hy, false_or]

/-- **C44, report settings.**  The report is generated with the configured ignore list, threshold, architectures and
operating systems.  The kinds of informational advisory reported are the configured ones (all three if none are
configured) and those a deny option is about, so that denying a kind has an effect. -/
theorem C44_report_settings (c : AuditConfig) :
    c.reportSettings.ignore = c.advisories.ignore ∧
    c.reportSettings.severity = c.advisories.severityThreshold ∧
    c.reportSettings.targetArch = FilterList.values c.target.arch ∧
    c.reportSettings.targetOs = FilterList.values c.target.os ∧
    ∀ i, i ∈ c.reportSettings.informationalWarnings ↔
      i ∈ c.advisories.informationalWarnings.getD [.unmaintained, .unsound, .notice] ∨
      ∃ d ∈ c.output.deny, ∃ k, DeniesDocumented d k ∧ WarnsAs i k := by
  refine ⟨rfl, rfl, rfl, rfl, fun i => ?_⟩
  unfold AuditConfig.reportSettings
  simp only [mem_denyLoop]
  cases c.advisories.informationalWarnings <;> rfl

theorem override_denies (ds : List DenyOption) (d0 : List DenyOption) :
    (∀ k, Denied (ds.foldl overrideDeny d0) k ↔ Denied d0 k ∨ Denied ds k) ∧
    (DenyOption.warnings ∈ ds.foldl overrideDeny d0 ↔ DenyOption.warnings ∈ d0 ∨ DenyOption.warnings ∈ ds) := by
  have hall : ∀ k, Denied DenyOption.all k ↔ k ≠ .notice := by
    intro k
    constructor
    · rintro ⟨d, -, h⟩; exact h.2
    · intro h; exact ⟨.warnings, by simp [DenyOption.all], trivial, h⟩
  have hn : ∀ (d : List DenyOption) k, Denied d k → k ≠ .notice := by rintro d k ⟨x, -, h⟩; exact h.2
  have happ : ∀ (a b : List DenyOption) k, Denied (a ++ b) k ↔ Denied a k ∨ Denied b k := by
    intro a b k; simp only [Denied, List.mem_append]; grind
  induction ds generalizing d0 with
  | nil => simp [Denied]
  | cons d ds ih =>
    rw [List.foldl_cons]
    obtain ⟨ih1, ih2⟩ := ih (overrideDeny d0 d)
    have hcons : ∀ k, Denied (d :: ds) k ↔ Denied [d] k ∨ Denied ds k := fun k => happ [d] ds k
    have hstep : ∀ k, Denied (overrideDeny d0 d) k ↔ Denied d0 k ∨ Denied [d] k := by
      intro k
      unfold overrideDeny
      by_cases hd : d = .warnings
      · rw [if_pos hd, hall]
        constructor
        · intro h; exact Or.inr ⟨d, by simp, by rw [hd]; exact ⟨trivial, h⟩⟩
        · rintro (h | h)
          · exact hn _ _ h
          · exact hn _ _ h
      · rw [if_neg hd, happ]
    refine ⟨fun k => ?_, ?_⟩
    · rw [ih1, hstep, hcons, or_assoc]
    · rw [ih2]
      unfold overrideDeny
      by_cases hd : d = .warnings
      · simp [hd, DenyOption.all]
      · simp [hd, Ne.symm hd]

/-- **C44, overrides.**  The command line changes the configuration exactly as documented: given options replace the
configured ones, switches only switch, `--ignore` adds to the ignore list, `--deny` adds to what is denied; everything
else stays.  The only error is an `--ignore` value that is not an advisory ID. -/
theorem C44_override (cmd : AuditCommand) (c : AuditConfig) :
    cmd.overrideConfig c ≠ .panic ∧
    ((∃ c', cmd.overrideConfig c = .ok c') ↔ ∀ s ∈ cmd.ignore, ∃ id, Id.fromStr s = .ok id) ∧
    ∀ c', cmd.overrideConfig c = .ok c' →
      (∃ ids, List.Forall₂ (fun s id => Id.fromStr s = .ok id) cmd.ignore ids ∧
        c'.advisories.ignore = c.advisories.ignore ++ ids) ∧
      c'.advisories.informationalWarnings = c.advisories.informationalWarnings ∧
      c'.advisories.severityThreshold = c.advisories.severityThreshold ∧
      c'.database.path = cmd.db.or c.database.path ∧
      c'.database.url = cmd.url.or c.database.url ∧
      (c'.database.fetch = true ↔ c.database.fetch = true ∧ cmd.noFetch = false) ∧
      (c'.database.stale = true ↔ c.database.stale = true ∨ cmd.stale = true) ∧
      (cmd.targetArch ≠ [] → FilterList.values c'.target.arch = cmd.targetArch) ∧
      (cmd.targetArch = [] → c'.target.arch = c.target.arch) ∧
      (cmd.targetOs ≠ [] → FilterList.values c'.target.os = cmd.targetOs) ∧
      (cmd.targetOs = [] → c'.target.os = c.target.os) ∧
      (∀ k, Denied c'.output.deny k ↔ Denied c.output.deny k ∨ Denied cmd.deny k) ∧
      (DenyOption.warnings ∈ c'.output.deny ↔ DenyOption.warnings ∈ c.output.deny ∨ DenyOption.warnings ∈ cmd.deny) ∧
      (c'.output.quiet = true ↔ c.output.quiet = true ∨ cmd.quiet = true) ∧
      (c'.output.showTree = true ↔ c.output.showTree = true ∧ cmd.quiet = false) ∧
      (cmd.outputJson = true → c'.output.format = .json) ∧
      (cmd.outputJson = false → c'.output.format = cmd.outputFormat.getD c.output.format) ∧
      (c'.yanked.enabled = true ↔ c.yanked.enabled = true ∧ cmd.noYanked = false) ∧
      c'.yanked.updateIndex = c.yanked.updateIndex := by
  have hids : ∀ l : List Str, Outcome.mapList Id.fromStr l ≠ .panic ∧
      ((∃ ids, Outcome.mapList Id.fromStr l = .ok ids) ↔ ∀ s ∈ l, ∃ id, Id.fromStr s = .ok id) ∧
      ∀ ids, Outcome.mapList Id.fromStr l = .ok ids → List.Forall₂ (fun s id => Id.fromStr s = .ok id) l ids := by
    intro l
    induction l with
    | nil => exact ⟨nofun, by simp [Outcome.mapList], by intro ids h; cases h; exact .nil⟩
    | cons s l ih =>
      have hnp : Id.fromStr s ≠ .panic := (C19_accepts_iff s).2
      unfold Outcome.mapList
      obtain ⟨i1, i2, i3⟩ := ih
      cases hs : Id.fromStr s with
      | panic => exact absurd hs hnp
      | err => exact ⟨nofun, by simp [hs], nofun⟩
      | ok id =>
        cases hl : Outcome.mapList Id.fromStr l with
        | panic => exact absurd hl i1
        | err =>
          refine ⟨nofun, ?_, nofun⟩
          rw [hl] at i2
          have : ¬ ∀ s ∈ l, ∃ id, Id.fromStr s = .ok id := fun h => by obtain ⟨_, h⟩ := i2.mpr h; cases h
          simp only [reduceCtorEq, exists_false, false_iff]
          intro h
          exact this fun s hs => h s (by simp [hs])
        | ok ids =>
          refine ⟨nofun, ?_, ?_⟩
          · have := i2.mp ⟨ids, hl⟩
            simp only [Outcome.ok.injEq, exists_eq', true_iff]
            intro x hx
            rcases List.mem_cons.mp hx with rfl | hx
            · exact ⟨id, hs⟩
            · exact this x hx
          · intro ids' h
            cases h
            exact .cons hs (i3 ids hl)
  obtain ⟨i1, i2, i3⟩ := hids cmd.ignore
  unfold AuditCommand.overrideConfig
  cases hm : Outcome.mapList Id.fromStr cmd.ignore with
  | panic => exact absurd hm i1
  | err =>
    have hne : ¬ ∀ s ∈ cmd.ignore, ∃ id, Id.fromStr s = .ok id := fun h => by
      obtain ⟨_, h⟩ := i2.mpr h
      rw [hm] at h
      cases h
    refine ⟨?_, ⟨?_, fun h => absurd h hne⟩, ?_⟩
    · intro h; cases h
    · rintro ⟨_, h⟩; cases h
    · intro _ h; cases h
  | ok ids =>
    refine ⟨?_, ⟨fun _ => i2.mp ⟨ids, hm⟩, fun _ => ⟨_, rfl⟩⟩, ?_⟩
    · intro h; cases h
    intro c' hc
    cases hc
    obtain ⟨d1, d2⟩ := override_denies cmd.deny c.output.deny
    refine ⟨⟨ids, i3 ids hm, rfl⟩, rfl, rfl, ?_, ?_, ?_, ?_, ?_, ?_, ?_, ?_, d1, d2, ?_, ?_, ?_, ?_, ?_, rfl⟩
    · cases cmd.db <;> rfl
    · cases cmd.url <;> rfl
    · simp
    · simp
    · intro h; simp [h, FilterList.values]
    · intro h; simp [h]
    · intro h; simp [h, FilterList.values]
    · intro h; simp [h]
    · simp
    · cases cmd.quiet <;> simp
    · intro h; simp [h]
    · intro h; cases hf : cmd.outputFormat <;> simp [h]
    · cases cmd.noYanked <;> simp

/-- **C44, no options.**  Without options the configuration is unchanged. -/
theorem C44_no_options (c : AuditConfig) : ({} : AuditCommand).overrideConfig c = .ok c := by
  obtain ⟨⟨ig, iw, st⟩, ⟨pa, u, fe, sta⟩, ⟨de, fo, qu, sh⟩, ⟨ar, os⟩, ⟨en, up⟩⟩ := c
  simp [AuditCommand.overrideConfig, Outcome.mapList]

/-- **C44, a default that is not the documented one.**  `show_tree` is documented as "default: true", but without a
configuration file it is off: no finding is printed with a dependency tree, whatever the options. -/
theorem C44_show_tree_default (cmd : AuditCommand) (c' : AuditConfig) (h : cmd.overrideConfig {} = .ok c') :
    c'.output.showTree = false := by
  have := ((C44_override cmd {}).2.2 c' h).2.2.2.2.2.2.2.2.2.2.2.2.2.2.1
  cases hs : c'.output.showTree with
  | false => rfl
  | true => have := (this.mp hs).1; cases this


end Verif.Props
