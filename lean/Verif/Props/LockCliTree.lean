import Verif.Props.LockCli
import Mathlib.Data.Finset.Card
import Mathlib.Data.Finset.Range

/-!
# C71: the whole tree, and translating back
-/

namespace Verif.Props

open Verif.Lock Verif.LockCli Verif.Spec

/-- **C71.**  Translating to V1 and back to a later format loses nothing of the packages. -/
theorem C71_there_and_back (E E' : CliEnv) (args args' : TranslateArgs) (l : Lockfile) (file : Str)
    (hc : E'.codec = E.codec) (hl : loadLockfile E args.file = .ok l)
    (h1 : WellFormedV1 E.codec { l with version := .v1 }) (hv : args.version = some .v1)
    (ho : args.output = some file) (hf : file ≠ "-".toList) (hfile : args'.file = some file)
    (hrun : ∀ doc, (translate E args).written = some (file, doc) → E'.file file = some doc) (hw : E.writable file = true)
    (h2 : ∀ m, WellFormed E.codec (translated E.codec { l with version := .v1, metadata := m } (args'.version.getD .v3)))
    (hout : args'.output = none) :
    ∃ doc l', translate E' args' = { stdout := [.doc doc], result := .ok () } ∧
      Lockfile.parse E.codec doc = .ok l' ∧ l'.packages = l.packages := by
  have e1 : translate E args = { written := some (file, Lockfile.print E.codec { l with version := .v1 }), result := .ok () } := by
    unfold translate
    rw [hl, ho, hv]
    simp only [Option.getD_some, if_neg hf, hw, if_true]
  have e2 : loadLockfile E' args'.file =
      .ok { l with version := .v1, metadata := (Lockfile.print E.codec { l with version := .v1 }).metadata } := by
    unfold loadLockfile
    rw [hfile, Option.getD_some, hrun _ (by rw [e1]), hc]
    exact (C30_round_trip E.codec _ h1).1
  obtain ⟨doc, hp, h3, -⟩ := C71_translate E' args' _ e2 _ rfl (by rw [hc]; exact h2 _)
  rw [hc] at hp
  exact ⟨doc, _, h3 (.inl hout), hp, rfl⟩

/-! ### The whole tree -/

theorem needs_of_edge {ps : List Package} {i j : Nat} {p : Package} {d : Dependency} (hi : ps[i]? = some p)
    (hd : d ∈ p.dependencies) (hn : NodeOf ps d j) : Needs ps i j := by
  obtain ⟨⟨q, hq, hnq⟩, -⟩ := hn
  exact ⟨p, q, d, hi, hq, hd, hnq⟩

theorem dependsOn_trans {ps : List Package} {i j k : Nat} (h1 : DependsOn ps i j) (h2 : DependsOn ps j k) :
    DependsOn ps i k := by
  induction h2 with
  | refl => exact h1
  | step _ a b c d ih => exact .step ih a b c d

theorem dependsOn_of_needs {ps : List Package} {i j : Nat} (h : Needs ps i j) : DependsOn ps i j := by
  obtain ⟨p, q, d, h1, h2, h3, h4⟩ := h
  exact .step .refl h1 h2 h3 h4

theorem has_root {l : Lockfile} (hp : Pinned l.packages) {t : Tree} (ht : Tree.new l = .ok t)
    (hac : ∀ i j, Needs l.packages i j → ¬ DependsOn l.packages j i) :
    ∀ (n : Nat) (i : Nat), i < l.packages.length → (S : Finset Nat) → S.card = n →
      (∀ k, k < l.packages.length → DependsOn l.packages k i → k ∈ S) →
      ∃ r ∈ t.roots, DependsOn l.packages r i := by
  intro n
  induction n with
  | zero =>
    intro i hi S hS hall
    have := hall i hi .refl
    rw [Finset.card_eq_zero.mp hS] at this
    exact absurd this (Finset.notMem_empty i)
  | succ n ih =>
    intro i hi S hS hall
    by_cases hr : i ∈ t.roots
    · exact ⟨i, hr, .refl⟩
    · have hnr : ¬ ∀ q ∈ l.packages, ∀ d ∈ q.dependencies, ¬ NodeOf l.packages d i := fun h =>
        hr (((C31_roots l hp t ht).2 i).mpr ⟨hi, h⟩)
      push Not at hnr
      obtain ⟨q, hq, d, hd, hn⟩ := hnr
      obtain ⟨k, hk⟩ := List.getElem?_of_mem hq
      have hneeds : Needs l.packages k i := needs_of_edge hk hd hn
      have hklt : k < l.packages.length := (List.getElem?_eq_some_iff.mp hk).1
      have hdep := dependsOn_of_needs hneeds
      obtain ⟨r, hr, hrk⟩ := ih k hklt (S.erase i) (by rw [Finset.card_erase_of_mem (hall i hi .refl), hS]; rfl)
        (fun m hm hmk => by
          rw [Finset.mem_erase]
          refine ⟨?_, hall m hm (dependsOn_trans hmk hdep)⟩
          rintro rfl
          exact hac k m hneeds hmk)
      exact ⟨r, hr, dependsOn_trans hrk hdep⟩

/-- **C71.**  `cargo lock tree` without arguments draws the trees of the packages that no other depends on; if no package
depends on itself, directly or indirectly, every package of the lockfile is on a line of one of them. -/
theorem C71_whole_tree (E : CliEnv) (args : TreeArgs) (l : Lockfile) (hl : loadLockfile E args.file = .ok l)
    (hp : Pinned l.packages) (hd : NoTwins l.packages) (hnone : args.dependencies = []) (t : Tree)
    (ht : Tree.new l = .ok t) :
    (∃ is texts, (∀ i, i ∈ is ↔ i < l.packages.length ∧ ∀ j, ¬ Needs l.packages j i) ∧ is.Pairwise (· < ·) ∧
      List.Forall₂ (fun i text => t.render E.codec i (if args.inverse then .incoming else .outgoing) args.exact =
        .ok text) is texts ∧
      (tree E args).stdout = (texts.map Out.text).intersperse (.line []) ∧ (tree E args).result = .ok ()) ∧
    ((∀ i j, Needs l.packages i j → ¬ DependsOn l.packages j i) → ∀ i, i < l.packages.length →
      ∃ r ls, r < l.packages.length ∧ (∀ j, ¬ Needs l.packages j r) ∧
        t.graph.renderLines .outgoing r = some ls ∧ i ∈ ls.map Line.node) := by
  have hroot : ∀ i, i ∈ t.roots ↔ i < l.packages.length ∧ ∀ j, ¬ Needs l.packages j i := by
    intro i
    rw [(C31_roots l hp t ht).2 i]
    refine and_congr_right fun hi => ⟨fun h j hn => ?_, fun h q hq d hdm hn => ?_⟩
    · obtain ⟨p, q, d, h1, h2, h3, h4⟩ := hn
      refine h p (List.mem_of_getElem? h1) d h3 ⟨⟨q, h2, h4⟩, fun k q' hk hq' hn' => ?_⟩
      refine absurd (hd i k q q' h2 hq' ?_) (Nat.ne_of_lt hk)
      have hpin := hp p (List.mem_of_getElem? h1)
      obtain ⟨a1, a2, a3⟩ := h4
      obtain ⟨b1, b2, b3⟩ := hn'
      refine ⟨a1.symm.trans b1, a2.symm.trans b2, ?_⟩
      rcases a3 with ⟨a3, a4⟩ | ⟨x, y, a3, a4, a5⟩
      · rcases b3 with ⟨-, b4⟩ | ⟨x', y', b3, -, -⟩
        · exact .inl ⟨a4, b4⟩
        · rw [a3] at b3; cases b3
      · rcases b3 with ⟨b3, -⟩ | ⟨x', y', b3, b4, b5⟩
        · rw [a3] at b3; cases b3
        · rw [a3] at b3
          cases b3
          refine .inr ⟨y, y', a4, b4, a5.1.symm.trans b5.1, a5.2.1.symm.trans b5.2.1, ?_⟩
          have hgx := fun hg => hpin.2 d h3 x a3 hg
          have hgy := fun hg => (hp q (List.mem_of_getElem? h2)).1 y a4 hg
          have hgy' := fun hg => (hp q' (List.mem_of_getElem? hq')).1 y' b4 hg
          rcases a5.2.2 with ⟨u1, u2, u3⟩ | ⟨u1, u2⟩
          · rcases b5.2.2 with ⟨w1, w2, w3⟩ | ⟨w1, w2⟩
            · refine .inl ⟨u2, w2, .inr (.inr ?_)⟩
              have e1 : x.precise = y.precise := by
                rcases u3 with u | u | u
                · exact absurd u (hgx u1)
                · exact absurd u (hgy u2)
                · exact u
              have e2 : x.precise = y'.precise := by
                rcases w3 with u | u | u
                · exact absurd u (hgx u1)
                · exact absurd u (hgy' w2)
                · exact u
              exact e1.symm.trans e2
            · exfalso
              obtain ⟨r, hr⟩ := u1
              exact w1 ⟨⟨r, hr⟩, ⟨r, w2 ▸ hr⟩⟩
          · rcases b5.2.2 with ⟨w1, w2, w3⟩ | ⟨w1, w2⟩
            · exfalso
              obtain ⟨r, hr⟩ := w1
              exact u1 ⟨⟨r, hr⟩, ⟨r, u2 ▸ hr⟩⟩
            · refine .inr ⟨fun hg => ?_, u2.symm.trans w2⟩
              obtain ⟨⟨r, hr⟩, -⟩ := hg
              exact u1 ⟨⟨r, u2.trans hr⟩, ⟨r, hr⟩⟩
    · obtain ⟨k, hk⟩ := List.getElem?_of_mem hq
      exact h k (needs_of_edge hk hdm hn)
  refine ⟨?_, fun hac i hi => ?_⟩
  · obtain ⟨ts, h1, h2⟩ := drawTrees_ok (C := E.codec) hp ht args t.roots fun i hi => ((hroot i).mp hi).1
    have hres : tree E args = { stdout := treeOut ts, result := .ok () } := by
      unfold tree
      rw [hl]
      have : args.dependencies.isEmpty = true := by rw [hnone]; rfl
      simp only [ht, this, if_true, h1]
    refine ⟨t.roots, ts, hroot, (C31_roots l hp t ht).1, h2, ?_, ?_⟩
    · rw [hres]; exact treeOut_eq ts
    · rw [hres]
  · obtain ⟨r, hr, hri⟩ := has_root hp ht hac _ i hi (Finset.range l.packages.length) rfl
      (fun k hk _ => Finset.mem_range.mpr hk)
    obtain ⟨hlt, hno⟩ := (hroot r).mp hr
    obtain ⟨ls, hls, hm⟩ := (C32_prints l hp hd t ht r hlt).1
    exact ⟨r, ls, hlt, hno, hls, (hm i).mpr hri⟩

/-- **C71.**  `cargo lock <args>` is `cargo-lock <args>`, and options alone are for `list`. -/
theorem C71_route (p : Str) (rest : List Str) :
    (rest.head? ≠ some "lock".toList → route (p :: "lock".toList :: rest) = route (p :: rest)) ∧
    (∀ a, ¬ "-".toList <+: a → a ≠ "lock".toList → route (p :: a :: rest) = .sub a rest) ∧
    (∀ a, "-".toList <+: a → route (p :: a :: rest) = .list (a :: rest)) ∧ route [p] = .list [] := by
  refine ⟨fun h => ?_, fun a ha hne => ?_, fun a ha => ?_, rfl⟩
  · have e1 : dropLock (p :: "lock".toList :: rest) = p :: rest := by
      unfold dropLock; exact if_pos rfl
    have e2 : dropLock (p :: rest) = p :: rest := by
      cases rest with
      | nil => rfl
      | cons a rest => unfold dropLock; exact if_neg fun e => h (by rw [e]; rfl)
    unfold route
    rw [e1, e2]
  · have e : dropLock (p :: a :: rest) = p :: a :: rest := by
      unfold dropLock; exact if_neg hne
    have hs : startsWith a "-" = false := by
      cases h : startsWith a "-" with
      | false => rfl
      | true => exact absurd (List.isPrefixOf_iff_prefix.mp h) ha
    unfold route
    rw [e]
    simp only [hs]
    rfl
  · have hne : a ≠ "lock".toList := by
      rintro rfl
      exact absurd ha (by decide)
    have e : dropLock (p :: a :: rest) = p :: a :: rest := by
      unfold dropLock; exact if_neg hne
    have hs : startsWith a "-" = true := List.isPrefixOf_iff_prefix.mpr ha
    unfold route
    rw [e]
    simp only [hs, if_true]

end Verif.Props
