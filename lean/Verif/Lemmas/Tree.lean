import Verif.Model.Tree
import Verif.Spec.Tree

/-! # Lemmas on rendering dependency trees -/

namespace Verif.Lock

open Verif.Spec

/-- `ExpandedOnce` relative to nodes already seen. -/
def Exp (nb : Nat → List Nat) (vis : List Nat) (occ : List (Nat × Forest)) : Prop :=
  ∀ a i c b, occ = a ++ (i, c) :: b →
    (i ∉ vis → i ∉ a.map Prod.fst → c.roots = nb i) ∧ (i ∈ vis ∨ i ∈ a.map Prod.fst → c = .nil)

theorem Exp.nil (nb : Nat → List Nat) (vis : List Nat) : Exp nb vis [] := by
  intro a i c b h
  simp at h

theorem Exp.append {nb : Nat → List Nat} {vis vis' : List Nat} {xs ys : List (Nat × Forest)}
    (hv : ∀ i, i ∈ vis' ↔ i ∈ vis ∨ i ∈ xs.map Prod.fst)
    (hx : Exp nb vis xs) (hy : Exp nb vis' ys) : Exp nb vis (xs ++ ys) := by
  intro a i c b h
  rcases List.append_eq_append_iff.mp h with ⟨as, h1, h2⟩ | ⟨bs, h1, h2⟩
  · have := hy as i c b h2
    subst h1
    rw [List.map_append, List.mem_append]
    refine ⟨fun n1 n2 => this.1 ?_ ?_, fun h => this.2 ?_⟩
    · rw [hv]; grind
    · grind
    · rw [hv]; grind
  · cases bs with
    | nil =>
      have := hy [] i c b (by simpa using h2.symm)
      have e : a = xs := by simpa using h1.symm
      subst e
      refine ⟨fun n1 n2 => this.1 ?_ (by simp), fun h => this.2 (Or.inl ?_)⟩
      · rw [hv]; grind
      · rw [hv]; grind
    | cons p bs =>
      rw [List.cons_append] at h2
      injection h2 with e1 e2
      subst e1
      exact hx a i c bs h1

theorem Exp.cons_new {nb : Nat → List Nat} {vis : List Nat} {i : Nat} {c : Forest} {ys : List (Nat × Forest)}
    (hi : i ∉ vis) (hc : c.roots = nb i) (hy : Exp nb (i :: vis) ys) : Exp nb vis ((i, c) :: ys) := by
  have : Exp nb vis [(i, c)] := by
    intro a j c' b h
    cases a with
    | nil =>
      simp only [List.nil_append, List.cons.injEq, Prod.mk.injEq] at h
      obtain ⟨⟨rfl, rfl⟩, rfl⟩ := h
      exact ⟨fun _ _ => hc, fun h => by simp at h; exact absurd h hi⟩
    | cons x a =>
      have := congrArg List.length h
      simp at this
  exact Exp.append (xs := [(i, c)]) (by simp [or_comm]) this hy

theorem Exp.cons_old {nb : Nat → List Nat} {vis : List Nat} {i : Nat}
    (hi : i ∈ vis) : Exp nb vis [(i, .nil)] := by
  intro a j c' b h
  cases a with
  | nil =>
    simp only [List.nil_append, List.cons.injEq, Prod.mk.injEq] at h
    obtain ⟨⟨rfl, rfl⟩, rfl⟩ := h
    exact ⟨fun h' => absurd hi h', fun _ => rfl⟩
  | cons x a =>
    have := congrArg List.length h
    simp at this

/-- Nodes below `n` not yet visited. -/
def unvisited (n : Nat) (vis : List Nat) : Nat := ((List.range n).filter fun i => decide (i ∉ vis)).length

theorem unvisited_mono {n : Nat} {vis vis' : List Nat} (h : ∀ i ∈ vis, i ∈ vis') :
    unvisited n vis' ≤ unvisited n vis := by
  unfold unvisited
  have e : (List.range n).filter (fun j => decide (j ∉ vis')) =
      ((List.range n).filter (fun j => decide (j ∉ vis))).filter (fun j => decide (j ∉ vis')) := by
    rw [List.filter_filter]
    apply List.filter_congr
    intro j _
    by_cases h1 : j ∈ vis'
    · simp [h1]
    · have : j ∉ vis := fun h' => h1 (h j h')
      simp [h1, this]
  rw [e]
  exact List.length_filter_le _ _

theorem unvisited_lt {n : Nat} {vis : List Nat} {i : Nat} (hi : i < n) (hv : i ∉ vis) :
    unvisited n (i :: vis) < unvisited n vis := by
  unfold unvisited
  have e : (List.range n).filter (fun j => decide (j ∉ i :: vis)) =
      ((List.range n).filter (fun j => decide (j ∉ vis))).filter (fun j => decide (j ≠ i)) := by
    rw [List.filter_filter]
    apply List.filter_congr
    intro j _
    simp [Bool.decide_and]
  rw [e]
  apply List.length_filter_lt_length_iff_exists.mpr
  exact ⟨i, by simp [hi, hv], by simp⟩

/-- What printing gives: a forest below, with the invariant on visited nodes. -/
def toLines (ls : List (List Bool × Nat)) : List Line := ls.map fun p => { levels := p.1, node := p.2 }

/-- The statement about one printed node. -/
def NodeOk (nb : Nat → List Nat) (lv : List Bool) (vis : List Nat) (i : Nat)
    (r : Option (List Line × List Nat)) : Prop :=
  ∃ cs vis', r = some ({ levels := lv, node := i } :: toLines (cs.lines lv), vis') ∧
    Exp nb vis ((i, cs) :: cs.occurrences) ∧
    ∀ j, j ∈ vis' ↔ j ∈ vis ∨ j ∈ ((i, cs) :: cs.occurrences).map Prod.fst

theorem printAll_ok {nb : Nat → List Nat} {pr : List Bool → List Nat → Nat → Option (List Line × List Nat)}
    {n k : Nat}
    (hpr : ∀ lv vis i, i < n → unvisited n vis < k → NodeOk nb lv vis i (pr lv vis i)) (lv : List Bool) :
    ∀ (ds vis : List Nat), (∀ d ∈ ds, d < n) → unvisited n vis < k →
      ∃ f vis', printAll pr lv vis ds = some (toLines (Forest.lines lv f), vis') ∧ f.roots = ds ∧
        Exp nb vis f.occurrences ∧ ∀ j, j ∈ vis' ↔ j ∈ vis ∨ j ∈ f.occurrences.map Prod.fst
  | [], vis, _, _ => ⟨.nil, vis, rfl, rfl, Exp.nil _ _, by simp [Forest.occurrences]⟩
  | d :: ds, vis, hd, hk => by
    obtain ⟨cs, vis1, h1, e1, v1⟩ := hpr (lv ++ [!ds.isEmpty]) vis d (hd d (by simp)) hk
    have hk1 : unvisited n vis1 < k :=
      Nat.lt_of_le_of_lt (unvisited_mono (fun j hj => (v1 j).mpr (Or.inl hj))) hk
    obtain ⟨f, vis2, h2, r2, e2, v2⟩ := printAll_ok hpr lv ds vis1 (fun x hx => hd x (by simp [hx])) hk1
    refine ⟨.cons d cs f, vis2, ?_, by rw [Forest.roots, r2], ?_, ?_⟩
    · unfold printAll
      rw [h1]
      simp only
      rw [h2]
      have hflag : (!ds.isEmpty) = f.more := by
        rw [← r2]; cases f <;> rfl
      simp only [Option.some.injEq, Prod.mk.injEq, and_true]
      rw [hflag]
      simp [toLines, Forest.lines]
    · unfold Forest.occurrences
      rw [← List.cons_append]
      exact Exp.append v1 e1 e2
    · intro j
      unfold Forest.occurrences
      rw [v2, v1, ← List.cons_append, List.map_append, List.mem_append, or_assoc]

theorem printNode_ok {nb : Nat → List Nat} {n : Nat} (hnb : ∀ i < n, ∀ j ∈ nb i, j < n) :
    ∀ (fuel : Nat) (lv : List Bool) (vis : List Nat) (i : Nat), i < n → unvisited n vis < fuel →
      NodeOk nb lv vis i (printNode nb fuel lv vis i)
  | 0, _, _, _, _, h => absurd h (Nat.not_lt_zero _)
  | fuel + 1, lv, vis, i, hi, hf => by
    unfold printNode
    by_cases hv : i ∈ vis
    · rw [if_pos hv]
      refine ⟨.nil, vis, rfl, Exp.cons_old hv, ?_⟩
      intro j
      simp only [Forest.occurrences, List.map_cons, List.map_nil, List.mem_singleton]
      constructor
      · exact Or.inl
      · rintro (h | rfl)
        · exact h
        · exact hv
    · rw [if_neg hv]
      have hu := unvisited_lt hi hv
      obtain ⟨f, vis', h, hr, he, hvis⟩ :=
        printAll_ok (printNode_ok hnb fuel) lv (nb i) (i :: vis) (hnb i hi) (by omega)
      rw [h]
      refine ⟨f, vis', rfl, Exp.cons_new hv hr he, ?_⟩
      intro j
      rw [hvis]
      simp only [List.mem_cons, List.map_cons]
      grind

/-- More fuel does not change a finished rendering. -/
theorem printAll_mono {pr pr' : List Bool → List Nat → Nat → Option (List Line × List Nat)}
    (h : ∀ lv vis i r, pr lv vis i = some r → pr' lv vis i = some r) (lv : List Bool) :
    ∀ (ds vis : List Nat) r, printAll pr lv vis ds = some r → printAll pr' lv vis ds = some r
  | [], vis, r, hr => hr
  | d :: ds, vis, r, hr => by
    unfold printAll at hr ⊢
    cases h1 : pr (lv ++ [!ds.isEmpty]) vis d with
    | none => rw [h1] at hr; cases hr
    | some x =>
      rw [h1] at hr
      rw [h _ _ _ _ h1]
      simp only at hr ⊢
      cases h2 : printAll pr lv x.2 ds with
      | none => rw [h2] at hr; cases hr
      | some y =>
        rw [h2] at hr
        rw [printAll_mono h lv ds x.2 y h2]
        exact hr

theorem printNode_mono {nb : Nat → List Nat} :
    ∀ (fuel k : Nat) (lv : List Bool) (vis : List Nat) (i : Nat) r,
      printNode nb fuel lv vis i = some r → printNode nb (fuel + k) lv vis i = some r
  | 0, _, _, _, _, _, h => by cases h
  | fuel + 1, k, lv, vis, i, r, h => by
    rw [show fuel + 1 + k = (fuel + k) + 1 by omega]
    unfold printNode at h ⊢
    by_cases hv : i ∈ vis
    · rw [if_pos hv] at h ⊢; exact h
    · rw [if_neg hv] at h ⊢
      cases h1 : printAll (printNode nb fuel) lv (i :: vis) (nb i) with
      | none => rw [h1] at h; cases h
      | some x =>
        rw [h1] at h
        rw [printAll_mono (fun lv vis i r => printNode_mono fuel k lv vis i r) lv _ _ _ h1]
        exact h

/-! ### Consequences of the printed shape -/

theorem mem_occ_of_root {f : Forest} {i : Nat} (h : i ∈ f.roots) : i ∈ f.occurrences.map Prod.fst := by
  induction f with
  | nil => simp [Forest.roots] at h
  | cons j cs rest _ ih2 =>
    simp only [Forest.roots, List.mem_cons] at h
    simp only [Forest.occurrences, List.map_cons, List.map_append, List.mem_cons, List.mem_append]
    rcases h with h | h
    · exact Or.inl h
    · exact Or.inr (Or.inr (ih2 h))

/-- Occurrences under an occurrence are occurrences. -/
theorem occ_sub {f : Forest} {i : Nat} {c : Forest} (h : (i, c) ∈ f.occurrences) :
    ∀ j ∈ c.roots, j ∈ f.occurrences.map Prod.fst := by
  induction f with
  | nil => simp [Forest.occurrences] at h
  | cons k cs rest ih1 ih2 =>
    simp only [Forest.occurrences, List.mem_cons, List.mem_append] at h
    simp only [Forest.occurrences, List.map_cons, List.map_append, List.mem_cons, List.mem_append]
    intro j hj
    rcases h with h | h | h
    · rw [Prod.mk.injEq] at h
      obtain ⟨_, rfl⟩ := h
      exact Or.inr (Or.inl (mem_occ_of_root hj))
    · exact Or.inr (Or.inl (ih1 h j hj))
    · exact Or.inr (Or.inr (ih2 h j hj))

theorem Reach.of {nb : Nat → List Nat} {i j k : Nat} (h1 : Reach nb i j) (h2 : Reach nb j k) : Reach nb i k := by
  induction h2 with
  | refl => exact h1
  | step _ hk ih => exact ih.step hk

theorem occ_reach {nb : Nat → List Nat} {f : Forest} {s : Nat}
    (hs : ∀ i c, (i, c) ∈ f.occurrences → ∀ j ∈ c.roots, j ∈ nb i)
    (hr : ∀ i ∈ f.roots, Reach nb s i) : ∀ i ∈ f.occurrences.map Prod.fst, Reach nb s i := by
  induction f generalizing s with
  | nil => simp [Forest.occurrences]
  | cons k cs rest ih1 ih2 =>
    intro i hi
    simp only [Forest.occurrences, List.map_cons, List.map_append, List.mem_cons, List.mem_append] at hi
    have hk : Reach nb s k := hr k (by simp [Forest.roots])
    have hsub : ∀ i c, (i, c) ∈ cs.occurrences → (i, c) ∈ (Forest.cons k cs rest).occurrences := by
      intro i c h; simp [Forest.occurrences, h]
    have hsub2 : ∀ i c, (i, c) ∈ rest.occurrences → (i, c) ∈ (Forest.cons k cs rest).occurrences := by
      intro i c h; simp [Forest.occurrences, h]
    rcases hi with rfl | hi | hi
    · exact hk
    · refine ih1 (fun i c h => hs i c (hsub i c h)) ?_ i hi
      intro j hj
      exact hk.step (hs k cs (by simp [Forest.occurrences]) j hj)
    · exact ih2 (fun i c h => hs i c (hsub2 i c h)) (fun j hj => hr j (by simp [Forest.roots, hj])) i hi

/-- The first occurrence of a node. -/
theorem first_occ {occ : List (Nat × Forest)} {i : Nat} (h : i ∈ occ.map Prod.fst) :
    ∃ a c b, occ = a ++ (i, c) :: b ∧ i ∉ a.map Prod.fst := by
  induction occ with
  | nil => simp at h
  | cons p occ ih =>
    by_cases hp : p.1 = i
    · exact ⟨[], p.2, occ, by rw [← hp]; rfl, by simp⟩
    · simp only [List.map_cons, List.mem_cons] at h
      rcases h with h | h
      · exact absurd h.symm hp
      · obtain ⟨a, c, b, e, hn⟩ := ih h
        refine ⟨p :: a, c, b, by rw [e]; rfl, ?_⟩
        simp only [List.map_cons, List.mem_cons, not_or]
        exact ⟨fun h => hp h.symm, hn⟩

theorem reach_iff {nb : Nat → List Nat} {s : Nat} {cs : Forest}
    (h : ExpandedOnce nb ((s, cs) :: cs.occurrences)) (i : Nat) :
    i ∈ ((s, cs) :: cs.occurrences).map Prod.fst ↔ Reach nb s i := by
  have hc : (s, cs) :: cs.occurrences = (Forest.cons s cs .nil).occurrences := by
    simp [Forest.occurrences]
  constructor
  · rw [hc] at h ⊢
    apply occ_reach
    · intro j c hj k hk
      obtain ⟨a, b, e⟩ := List.append_of_mem hj
      by_cases hn : j ∈ a.map Prod.fst
      · rw [(h a j c b e).2 hn] at hk; simp [Forest.roots] at hk
      · rw [← (h a j c b e).1 hn]; exact hk
    · intro j hj
      simp only [Forest.roots, List.mem_singleton] at hj
      rw [hj]; exact .refl
  · intro hr
    induction hr with
    | refl => simp
    | @step j k _ hk ih =>
      obtain ⟨a, c, b, e, hn⟩ := first_occ ih
      rw [← (h a _ c b e).1 hn] at hk
      rw [hc] at e ⊢
      exact occ_sub (i := j) (c := c) (by rw [e]; simp) _ hk

/-- Size of a forest. -/
theorem occ_length (f : Forest) :
    f.occurrences.length = f.roots.length + (f.occurrences.map fun p => p.2.roots.length).sum := by
  induction f with
  | nil => rfl
  | cons i cs rest ih1 ih2 =>
    simp only [Forest.occurrences, Forest.roots, List.length_cons, List.length_append, List.map_cons,
      List.map_append, List.sum_cons, List.sum_append]
    omega

theorem lines_length (lv : List Bool) (f : Forest) : (f.lines lv).length = f.occurrences.length := by
  induction f generalizing lv with
  | nil => rfl
  | cons i cs rest ih1 ih2 =>
    simp only [Forest.lines, Forest.occurrences, List.length_cons, List.length_append, ih1, ih2]

theorem lines_nodes (lv : List Bool) (f : Forest) : (f.lines lv).map (·.2) = f.occurrences.map (·.1) := by
  induction f generalizing lv with
  | nil => rfl
  | cons i cs rest ih1 ih2 =>
    simp only [Forest.lines, Forest.occurrences, List.map_cons, List.map_append, ih1, ih2]

theorem exp_sum {nb : Nat → List Nat} : ∀ (occ : List (Nat × Forest)) (vis : List Nat), Exp nb vis occ →
    ∃ ex : List Nat, ex.Nodup ∧ (∀ i, i ∈ ex ↔ i ∉ vis ∧ i ∈ occ.map Prod.fst) ∧
      (occ.map fun p => p.2.roots.length).sum = (ex.map fun i => (nb i).length).sum
  | [], vis, _ => ⟨[], List.nodup_nil, by simp, rfl⟩
  | (i, c) :: occ, vis, h => by
    have hh := h [] i c occ rfl
    by_cases hv : i ∈ vis
    · have hrest : Exp nb vis occ := by
        intro a j c' b e
        have := h ((i, c) :: a) j c' b (by rw [e]; rfl)
        refine ⟨fun n1 n2 => this.1 n1 ?_, fun h => this.2 ?_⟩
        · simp only [List.map_cons, List.mem_cons, not_or]
          exact ⟨fun e => n1 (e ▸ hv), n2⟩
        · simp only [List.map_cons, List.mem_cons]; grind
      obtain ⟨ex, h1, h2, h3⟩ := exp_sum occ vis hrest
      refine ⟨ex, h1, ?_, ?_⟩
      · intro j; rw [h2]; simp only [List.map_cons, List.mem_cons]; grind
      · rw [List.map_cons, List.sum_cons, h3, hh.2 (Or.inl hv)]
        simp [Forest.roots]
    · have hrest : Exp nb (i :: vis) occ := by
        intro a j c' b e
        have := h ((i, c) :: a) j c' b (by rw [e]; rfl)
        simp only [List.map_cons, List.mem_cons] at this
        simp only [List.mem_cons]
        grind
      obtain ⟨ex, h1, h2, h3⟩ := exp_sum occ (i :: vis) hrest
      refine ⟨i :: ex, ?_, ?_, ?_⟩
      · rw [List.nodup_cons]; exact ⟨fun h => by simpa using (h2 i).mp h, h1⟩
      · intro j
        simp only [List.mem_cons, h2, List.map_cons, not_or]
        constructor
        · rintro (rfl | h)
          · exact ⟨hv, Or.inl rfl⟩
          · exact ⟨h.1.2, Or.inr h.2⟩
        · rintro ⟨a, rfl | b⟩
          · exact Or.inl rfl
          · by_cases e : j = i
            · exact Or.inl e
            · exact Or.inr ⟨⟨e, a⟩, b⟩
      · rw [List.map_cons, List.sum_cons, h3, hh.1 hv (by simp), List.map_cons, List.sum_cons]

end Verif.Lock
