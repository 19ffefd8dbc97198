import Verif.Props.LockTree
import Verif.Props.LockCommandsExamples

/-!
# C102: examples
-/

namespace Verif.Props

open Verif Verif.Lock Verif.LockCli Verif.Semver Verif.Spec

private def textLines (l : List String) : Str := l.flatMap fun s => s.toList ++ ['\n']

/-- Four packages: `a` depends on `b` and `c`, and these on `d`. -/
private def diamondText : Str := textLines
  ["version = 4",
   "",
   "[[package]]",
   "name = \"a\"",
   "version = \"0.1.0\"",
   "dependencies = [\"b\", \"c\"]",
   "",
   "[[package]]",
   "name = \"b\"",
   "version = \"1.0.0\"",
   "dependencies = [\"d\"]",
   "",
   "[[package]]",
   "name = \"c\"",
   "version = \"2.0.0\"",
   "source = \"git+https://c.example/c?branch=x#77\"",
   "dependencies = [\"d\"]",
   "",
   "[[package]]",
   "name = \"d\"",
   "version = \"3.0.0\""]

private def diamondTexts : LockTexts :=
  { url := toyUrl, out := basicOut, file := fun p => if p = "Cargo.lock".toList then some diamondText else none, writable := fun _ => true }

/-- What is printed for it. -/
example : (tree diamondTexts.env {}).printed diamondTexts = textLines
    ["a 0.1.0",
     "├── c 2.0.0",
     "│   └── d 3.0.0",
     "└── b 1.0.0",
     "    └── d 3.0.0"] := by decide +kernel

example : (tree diamondTexts.env { dependencies := ["d".toList, "c@2.0.0".toList], inverse := true }).printed diamondTexts = textLines
    ["d 3.0.0",
     "├── c 2.0.0",
     "│   └── a 0.1.0",
     "└── b 1.0.0",
     "    └── a 0.1.0",
     "",
     "c 2.0.0",
     "└── a 0.1.0"] := by decide +kernel

/-- `Pinned`, as a Boolean (sufficient). -/
private def pinnedB (ps : List Package) : Bool :=
  ps.all fun p => (match p.source with | some s => s.precise.isSome || decide (s.kind = .registry) | none => true) &&
    p.dependencies.all fun d => match d.source with | some s => s.precise.isSome || decide (s.kind = .registry) | none => true

private theorem pinned_of {ps : List Package} (h : pinnedB ps = true) : Pinned ps := by
  have key : ∀ {o : Option SourceId}, (match o with | some s => s.precise.isSome || decide (s.kind = .registry) | none => true) = true →
      ∀ s, o = some s → (∃ r, s.kind = .git r) → s.precise ≠ none := by
    rintro o ho s rfl ⟨r, hr⟩ hn
    simp [hn, hr] at ho
  unfold pinnedB at h
  rw [List.all_eq_true] at h
  refine fun p hp => ⟨?_, fun d hd => ?_⟩
  · exact key ((Bool.and_eq_true _ _).mp (h p hp)).1
  · exact key (List.all_eq_true.mp ((Bool.and_eq_true _ _).mp (h p hp)).2 d hd)

private theorem no_twins {ps : List Package} (h : (ps.map fun p => p.name).Nodup) : NoTwins ps := by
  rintro i j p q hi hj ⟨hn, -, -⟩
  have h1 : (ps.map fun p => p.name)[i]? = some p.name := by rw [List.getElem?_map, hi]; rfl
  have h2 : (ps.map fun p => p.name)[j]? = some p.name := by rw [List.getElem?_map, hj]; exact congrArg some hn.symm
  have hi' := (List.getElem?_eq_some_iff.mp h1)
  have hj' := (List.getElem?_eq_some_iff.mp h2)
  obtain ⟨a, ha⟩ := hi'
  obtain ⟨b, hb⟩ := hj'
  exact (List.Nodup.getElem_inj_iff h).mp (ha.trans hb.symm)

/-- Packages depend on later ones only. -/
private def downB : List Package → Bool
  | [] => true
  | p :: ps => (p.dependencies.all fun d => ps.any fun q => decide (q.name = d.name)) && downB ps

private def diamondOk : Bool :=
  match Lockfile.fromText (semverCodec toyUrl) Toml.read diamondText with
  | .ok l => madeB (semverCodec toyUrl) l && (pinnedB l.packages && (decide (l.packages.map fun p => p.name).Nodup &&
      (downB l.packages && decide (l.packages.length = 4))))
  | _ => false

private theorem down_needs {ps : List Package} (hn : (ps.map fun p => p.name).Nodup) (h : downB ps = true) :
    ∀ i j, Needs ps i j → i < j := by
  induction ps with
  | nil => rintro i j ⟨p, q, d, hi, -⟩; cases hi
  | cons x xs ih =>
    unfold downB at h
    rw [Bool.and_eq_true, List.all_eq_true] at h
    rw [List.map_cons, List.nodup_cons] at hn
    have later : ∀ {k : Nat} {p : Package}, (x :: xs)[k]? = some p → p ∈ xs → ∃ k', k = k' + 1 ∧ xs[k']? = some p := by
      rintro (_ | k) p hk hp
      · cases hk
        exact absurd (List.mem_map_of_mem hp) hn.1
      · exact ⟨k, rfl, hk⟩
    have closed : ∀ (ys : List Package), downB ys = true → ∀ p ∈ ys, ∀ d ∈ p.dependencies, ∃ q ∈ ys, q.name = d.name := by
      intro ys hys
      induction ys with
      | nil => intro p hp; cases hp
      | cons y ys ihy =>
        unfold downB at hys
        rw [Bool.and_eq_true, List.all_eq_true] at hys
        intro p hp d hd
        rcases List.mem_cons.mp hp with rfl | hp
        · obtain ⟨q, hq, he⟩ := List.any_eq_true.mp (hys.1 d hd)
          exact ⟨q, List.mem_cons_of_mem _ hq, of_decide_eq_true he⟩
        · obtain ⟨q, hq, he⟩ := ihy hys.2 p hp d hd
          exact ⟨q, List.mem_cons_of_mem _ hq, he⟩
    rintro i j ⟨p, q, d, hi, hj, hd, hnm, hv, hs⟩
    have hq : q ∈ xs := by
      have hex : ∃ r ∈ xs, r.name = d.name := by
        rcases List.mem_cons.mp (List.mem_of_getElem? hi) with rfl | hp
        · obtain ⟨r, hr, he⟩ := List.any_eq_true.mp (h.1 d hd)
          exact ⟨r, hr, of_decide_eq_true he⟩
        · exact closed xs h.2 p hp d hd
      obtain ⟨r, hr, he⟩ := hex
      rcases List.mem_cons.mp (List.mem_of_getElem? hj) with rfl | hq
      · exact absurd (List.mem_map.mpr ⟨r, hr, he.trans hnm⟩) hn.1
      · exact hq
    obtain ⟨j', rfl, hj'⟩ := later hj hq
    rcases i with _ | i
    · exact Nat.succ_pos _
    · have := ih hn.2 h.2 i j' ⟨p, q, d, hi, hj', hd, hnm, hv, hs⟩
      omega

private theorem depends_le {ps : List Package} (h : ∀ i j, Needs ps i j → i < j) {i j : Nat} (hd : DependsOn ps i j) : i ≤ j := by
  induction hd with
  | refl => exact Nat.le_refl _
  | step _ h1 h2 h3 h4 ih => exact Nat.le_of_lt (Nat.lt_of_le_of_lt ih (h _ _ ⟨_, _, _, h1, h2, h3, h4⟩))

/-- The hypotheses of C102 are met by this lockfile. -/
example : diamondTexts.file "Cargo.lock".toList = some diamondText ∧ ∃ l, LockfileOf (semverCodec toyUrl) diamondText l ∧
    CargoMade (semverCodec toyUrl) l ∧ Pinned l.packages ∧ NoTwins l.packages ∧ l.packages.length = 4 ∧
    ∀ i j, Needs l.packages i j → ¬ DependsOn l.packages j i := by
  refine ⟨rfl, ?_⟩
  have h : diamondOk = true := by decide +kernel
  unfold diamondOk at h
  cases hr : Lockfile.fromText (semverCodec toyUrl) Toml.read diamondText with
  | ok l =>
    rw [hr] at h
    simp only [Bool.and_eq_true, decide_eq_true_eq] at h
    have hlt := down_needs h.2.2.1 h.2.2.2.1
    exact ⟨l, (C96_lockfile _ _ _).mp hr, cargo_made h.1, pinned_of h.2.1, no_twins h.2.2.1, h.2.2.2.2, fun i j hn hd =>
      absurd (hlt i j hn) (Nat.not_lt.mpr (depends_le hlt hd))⟩
  | err => rw [hr] at h; cases h
  | panic => rw [hr] at h; cases h

end Verif.Props
