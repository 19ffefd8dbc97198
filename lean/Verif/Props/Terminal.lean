import Verif.Spec.Terminal
import Verif.Props.AuditRun
import Verif.Props.Newer
import Verif.Props.VersionsCargo
import Verif.Props.AdvisoryDecode
import Verif.Props.SyncRun

/-!
# C73: what `cargo audit` prints on the terminal
-/

namespace Verif.Props

open Verif.Audit Verif.Semver Verif.Osv Verif.Adv Verif.Rep Verif.Lock Verif.Spec

theorem joinWith_separated (sep : String) (l : List Str) : joinWith sep.toList l = separated sep l := by
  unfold separated
  induction l with
  | nil => rfl
  | cons s rest ih =>
    cases rest with
    | nil => simp [joinWith]
    | cons s' rest => rw [joinWith, ih, List.intersperse_cons₂]; simp; exact nofun

/-! ## The advice -/

theorem newer_release (req : VersionReq) (current : Version) (h : permitsNewer req current = true) :
    ∃ v : Version, current < v ∧ Release v ∧ req.isMatch v = true := by
  unfold permitsNewer at h
  simp only [List.any_eq_true, Bool.and_eq_true, decide_eq_true_eq] at h
  obtain ⟨v, hm, h1, h2⟩ := h
  refine ⟨v, Version.lt_def.mpr (Std.OrientedCmp.gt_iff_lt.mp h1), ?_, h2⟩
  simp only [List.mem_append, List.mem_cons, List.not_mem_nil, or_false, List.mem_flatMap] at hm
  rcases hm with (rfl | rfl | rfl) | ⟨c, -, rfl | rfl | rfl⟩ <;> exact ⟨rfl, rfl⟩

theorem new_is {patched unaffected : List VersionReq} {vs : Versions} (h : Versions.new patched unaffected = .ok vs) :
    vs = ⟨patched, unaffected⟩ := by
  unfold Versions.new at h
  cases hu : unaffectedToOsvRanges unaffected patched <;> rw [hu] at h <;> simp at h
  exact h.symm

/-- **C73, patched.**  If the advisory names patched versions, the advice is to upgrade to them, all of them, and no
version that one of them covers is vulnerable. -/
theorem C73_patched (T : TermLib) (v : Vulnerability)
    (hwf : ∀ r ∈ v.versions.patched ++ v.versions.unaffected, ReqWF r)
    (h : Versions.new v.versions.patched v.versions.unaffected = .ok v.versions) (hp : v.versions.patched ≠ []) :
    solution T v = "Upgrade to ".toList ++ separated " OR " (v.versions.patched.map T.req) ++ " (patched)".toList ∧
    ∀ r ∈ v.versions.patched, ∀ w, Covers r w → v.versions.isVulnerable w = .ok false := by
  constructor
  · unfold solution joinReqs
    rw [joinWith_separated]
    have : (!v.versions.patched.isEmpty) = true := by cases hq : v.versions.patched <;> simp_all
    rw [if_pos this]
  · intro r hr w hw
    obtain ⟨b, hb, hb'⟩ := C01_is_vulnerable_iff _ _ _ hwf h w
    cases b with
    | false => exact hb
    | true => exact absurd hw (hb'.mp rfl r (List.mem_append_left _ hr))

theorem solution_unpatched (T : TermLib) (v : Vulnerability) (hp : v.versions.patched = []) :
    solution T v =
      if (v.versions.unaffected.filter fun r => permitsNewer r v.package.version) = [] then
        "No fixed upgrade is available!".toList
      else "Upgrade to ".toList ++
        separated " OR " ((v.versions.unaffected.filter fun r => permitsNewer r v.package.version).map T.req) ++
        " (unaffected)".toList := by
  unfold solution joinReqs
  rw [hp]
  simp only [List.isEmpty_nil, Bool.not_true, Bool.false_eq_true, if_false]
  rw [joinWith_separated]
  cases (v.versions.unaffected.filter fun r => permitsNewer r v.package.version) with
  | nil => rfl
  | cons r rs => rw [if_neg nofun]; rfl

theorem text_differs (a b : Str) : "Upgrade to ".toList ++ a ++ b ≠ "No fixed upgrade is available!".toList := by
  intro h
  have := congrArg List.head? h
  revert this
  simp

/-- **C73, unaffected.**  If the advisory names no patched version, requirements are advised only if they are among those
never affected, and each of them is met by some release newer than the installed version; for requirements that name
all their numbers that release is not vulnerable. -/
theorem C73_unaffected (T : TermLib) (v : Vulnerability)
    (hwf : ∀ r ∈ v.versions.patched ++ v.versions.unaffected, ReqWF r)
    (h : Versions.new v.versions.patched v.versions.unaffected = .ok v.versions) (hp : v.versions.patched = [])
    (hs : solution T v ≠ "No fixed upgrade is available!".toList) :
    ∃ rs, rs ≠ [] ∧ rs.Sublist v.versions.unaffected ∧
      solution T v = "Upgrade to ".toList ++ separated " OR " (rs.map T.req) ++ " (unaffected)".toList ∧
      ∀ r ∈ rs, ∃ w : Version, v.package.version < w ∧ Release w ∧ r.isMatch w = true ∧
        ((∀ r ∈ v.versions.unaffected, ExactNumbers r) → v.versions.isVulnerable w = .ok false) := by
  rw [solution_unpatched T v hp] at hs ⊢
  by_cases hn : (v.versions.unaffected.filter fun r => permitsNewer r v.package.version) = []
  · rw [if_pos hn] at hs; exact absurd rfl hs
  · rw [if_neg hn]
    refine ⟨_, hn, List.filter_sublist, rfl, ?_⟩
    intro r hr
    rw [List.mem_filter] at hr
    obtain ⟨w, h1, h2, h3⟩ := newer_release r _ hr.2
    refine ⟨w, h1, h2, h3, ?_⟩
    intro hex
    obtain ⟨b, hb, hb'⟩ := C07_agrees_with_semver_matches _ _ _ hwf h
      (by intro r hr; rw [hp, List.nil_append] at hr; exact hex r hr) w h2.1
    rw [hb, hb'.mpr ⟨r, List.mem_append_right _ hr.1, h3⟩]

/-- **C73, no upgrade.**  With a release installed and requirements that name all their numbers, "No fixed upgrade is
available!" is printed exactly if the advisory names no patched version and every newer release is vulnerable; and
otherwise every newer release that is not vulnerable meets a requirement that is shown. -/
theorem C73_no_upgrade (T : TermLib) (v : Vulnerability)
    (hwf : ∀ r ∈ v.versions.patched ++ v.versions.unaffected, ReqWF r)
    (h : Versions.new v.versions.patched v.versions.unaffected = .ok v.versions)
    (hex : ∀ r ∈ v.versions.patched ++ v.versions.unaffected, ExactNumbers r) (hcur : v.package.version.pre = []) :
    (solution T v = "No fixed upgrade is available!".toList ↔
      v.versions.patched = [] ∧
        ∀ w : Version, Release w → v.package.version < w → v.versions.isVulnerable w = .ok true) ∧
    ∀ w : Version, Release w → v.package.version < w → v.versions.isVulnerable w = .ok false →
      ∃ rs how, (rs = v.versions.patched ∨ rs.Sublist v.versions.unaffected) ∧
        solution T v = "Upgrade to ".toList ++ separated " OR " (rs.map T.req) ++ how ∧
        (v.versions.patched = [] → ∃ r ∈ rs, r.isMatch w = true) := by
  have hcomp : ∀ w : Version, Release w → v.package.version < w → ∀ r ∈ v.versions.unaffected, r.isMatch w = true →
      permitsNewer r v.package.version = true := by
    intro w hw hlt r hr hm
    refine C49_complete_releases r (hwf r (List.mem_append_right _ hr)) ?_ _ w hcur hw.1 hw.2 hlt hm
    rintro c hc ⟨hg, hmin⟩
    exact hex r (List.mem_append_right _ hr) c hc (Or.inr (Or.inl hg)) ((hwf r (List.mem_append_right _ hr) c hc).1 hmin)
  have hdec := fun (w : Version) (hw : Release w) =>
    C07_agrees_with_semver_matches _ _ _ hwf h (fun r hr => hex r hr) w hw.1
  constructor
  · by_cases hp : v.versions.patched = []
    · rw [solution_unpatched T v hp]
      by_cases hn : (v.versions.unaffected.filter fun r => permitsNewer r v.package.version) = []
      · rw [if_pos hn]
        simp only [true_iff]
        refine ⟨hp, fun w hw hlt => ?_⟩
        obtain ⟨b, hb, hb'⟩ := hdec w hw
        cases b with
        | true => exact hb
        | false =>
          obtain ⟨r, hr, hm⟩ := hb'.mp rfl
          rw [hp, List.nil_append] at hr
          have := List.filter_eq_nil_iff.mp hn r hr
          exact absurd (hcomp w hw hlt r hr hm) this
      · rw [if_neg hn]
        refine iff_of_false (text_differs _ _) ?_
        rintro ⟨-, hall⟩
        obtain ⟨r, hr⟩ := List.exists_mem_of_ne_nil _ hn
        rw [List.mem_filter] at hr
        obtain ⟨w, h1, h2, h3⟩ := newer_release r _ hr.2
        obtain ⟨b, hb, hb'⟩ := hdec w h2
        rw [hall w h2 h1, Outcome.ok.injEq] at hb
        have := hb'.mpr ⟨r, List.mem_append_right _ hr.1, h3⟩
        rw [← hb] at this; cases this
    · rw [(C73_patched T v hwf h hp).1]
      exact iff_of_false (text_differs _ _) (fun hh => hp hh.1)
  · intro w hw hlt hnv
    by_cases hp : v.versions.patched = []
    · obtain ⟨b, hb, hb'⟩ := hdec w hw
      rw [hnv, Outcome.ok.injEq] at hb
      obtain ⟨r, hr, hm⟩ := hb'.mp hb.symm
      rw [hp, List.nil_append] at hr
      have hin : r ∈ v.versions.unaffected.filter fun r => permitsNewer r v.package.version :=
        List.mem_filter.mpr ⟨hr, hcomp w hw hlt r hr hm⟩
      refine ⟨_, " (unaffected)".toList, Or.inr List.filter_sublist, ?_, fun _ => ⟨r, hin, hm⟩⟩
      rw [solution_unpatched T v hp, if_neg (List.ne_nil_of_mem hin)]
    · exact ⟨_, _, Or.inl rfl, (C73_patched T v hwf h hp).1, fun e => absurd e hp⟩

/-! ## The findings -/

theorem linkOf_iff (m : Metadata) (s : Str) : linkOf m = some s ↔ Linked m s := by
  unfold linkOf
  constructor
  · intro h
    by_cases hl : m.license = .ccBy40
    · rw [if_pos hl] at h
      cases hu : m.url with
      | some u => rw [hu] at h; cases h; exact .original u hl hu
      | none => rw [hu] at h; exact .originalUnknown s hl hu h
    · rw [if_neg hl] at h
      cases hi : m.id.url with
      | some t => rw [hi] at h; cases h; exact .page _ hl hi
      | none =>
        rw [hi] at h
        obtain ⟨u, hu, rfl⟩ := Option.map_eq_some_iff.mp h
        exact .noPage u hl hi hu
  · rintro (⟨u, hl, hu⟩ | ⟨_, hl, hu, hi⟩ | ⟨_, hl, hi⟩ | ⟨u, hl, hi, hu⟩)
    · rw [if_pos hl, hu]
    · rw [if_pos hl, hu]; exact hi
    · rw [if_neg hl, hi]
    · rw [if_neg hl, hi, hu]; rfl

/-- A line that is not an attribute with one of the labels that may be missing. -/
def Plain (x : TermLine) : Prop :=
  ∀ e s, x ≠ .attr e "URL:      ".toList s ∧ x ≠ .attr e "Severity: ".toList s

theorem plain_attr {e : Bool} {label s : Str} (h1 : label ≠ "URL:      ".toList) (h2 : label ≠ "Severity: ".toList) :
    Plain (.attr e label s) := by
  intro e' s'
  constructor <;> intro h <;> cases h
  · exact h1 rfl
  · exact h2 rfl

theorem introduces (T : TermLib) (m : Metadata) (e : Bool) (a b : List TermLine) (ha : ∀ x ∈ a, Plain x)
    (hb : ∀ x ∈ b, Plain x) : Introduces T m e (a ++ metadataLines T e m ++ b) := by
  have hin : ∀ x, x ∈ metadataLines T e m → x ∈ a ++ metadataLines T e m ++ b := fun x h =>
    List.mem_append_left _ (List.mem_append_right _ h)
  have hout : ∀ x, ¬ Plain x → (x ∈ a ++ metadataLines T e m ++ b ↔ x ∈ metadataLines T e m) := by
    intro x hx
    constructor
    · intro h
      rcases List.mem_append.mp h with h | h
      · rcases List.mem_append.mp h with h | h
        · exact absurd (ha x h) hx
        · exact h
      · exact absurd (hb x h) hx
    · exact hin x
  refine ⟨hin _ ?_, hin _ ?_, hin _ ?_, ?_, ?_⟩
  · exact List.mem_append_left _ (List.mem_append_left _ (.head _))
  · exact List.mem_append_left _ (List.mem_append_left _ (.tail _ (.head _)))
  · exact List.mem_append_left _ (List.mem_append_left _ (.tail _ (.tail _ (.head _))))
  · intro s
    rw [hout _ (fun h => (h e s).1 rfl), ← linkOf_iff]
    unfold metadataLines severityLine
    rw [List.mem_append, List.mem_append]
    constructor
    · rintro ((h | h) | h)
      · simp only [List.mem_cons, TermLine.attr.injEq, List.not_mem_nil, or_false] at h
        rcases h with h | h | h <;> exact absurd h.2.1 (by decide)
      · cases hl : linkOf m with
        | none => rw [hl] at h; cases h
        | some u => rw [hl] at h; cases List.mem_singleton.mp h; rfl
      · split at h
        · have := List.mem_singleton.mp h
          rw [TermLine.attr.injEq] at this
          exact absurd this.2.1 (by decide)
        · cases h
    · intro h
      rw [h]
      exact Or.inl (Or.inr (.head _))
  · intro s
    rw [hout _ (fun h => (h e s).2 rfl)]
    unfold metadataLines severityLine
    rw [List.mem_append, List.mem_append]
    constructor
    · rintro ((h | h) | h)
      · simp only [List.mem_cons, TermLine.attr.injEq, List.not_mem_nil, or_false] at h
        rcases h with h | h | h <;> exact absurd h.2.1 (by decide)
      · cases hl : linkOf m with
        | none => rw [hl] at h; cases h
        | some u =>
          rw [hl] at h
          have := List.mem_singleton.mp h
          rw [TermLine.attr.injEq] at this
          exact absurd this.2.1 (by decide)
      · split at h
        · rename_i v g h1 h2
          have := List.mem_singleton.mp h
          rw [TermLine.attr.injEq] at this
          exact ⟨v, g, h1, h2, this.2.2⟩
        · cases h
    · rintro ⟨v, g, h1, h2, rfl⟩
      rw [h1, h2]
      exact Or.inr (.head _)

theorem metadataLines_red (T : TermLib) (m : Metadata) (e : Bool) : ∀ x ∈ metadataLines T e m, Red x → e = true := by
  intro x hx hr
  unfold metadataLines severityLine at hx
  rw [List.mem_append, List.mem_append] at hx
  rcases hx with (h | h) | h
  · simp only [List.mem_cons, List.not_mem_nil, or_false] at h
    rcases h with rfl | rfl | rfl <;> exact hr
  · split at h
    · cases List.mem_singleton.mp h; exact hr
    · cases h
  · split at h
    · cases List.mem_singleton.mp h; exact hr
    · cases h

theorem metadataLines_label (T : TermLib) (m : Metadata) (e e' : Bool) (label s : Str)
    (h : TermLine.attr e label s ∈ metadataLines T e' m) :
    label = "Title:    ".toList ∨ label = "Date:     ".toList ∨ label = "ID:       ".toList ∨
    label = "URL:      ".toList ∨ label = "Severity: ".toList := by
  unfold metadataLines severityLine at h
  rw [List.mem_append, List.mem_append] at h
  rcases h with (h | h) | h
  · simp only [List.mem_cons, List.not_mem_nil, or_false, TermLine.attr.injEq] at h
    rcases h with h | h | h
    · exact Or.inl h.2.1
    · exact Or.inr (Or.inl h.2.1)
    · exact Or.inr (Or.inr (Or.inl h.2.1))
  · split at h
    · have := List.mem_singleton.mp h
      rw [TermLine.attr.injEq] at this
      exact Or.inr (Or.inr (Or.inr (Or.inl this.2.1)))
    · cases h
  · split at h
    · have := List.mem_singleton.mp h
      rw [TermLine.attr.injEq] at this
      exact Or.inr (Or.inr (Or.inr (Or.inr this.2.1)))
    · cases h

/-- The lines after the description: affected functions, tree, empty line. -/
theorem tail_lines (e : Bool) (affected : List (List Str)) (tree : Option Str) (lines : List TermLine)
    (h : affectedLines e affected = .ok lines) :
    (∀ x ∈ lines ++ (match tree with | some t => [.tree e t] | none => []) ++ [.blank],
      (Red x → e = true) ∧ ∀ e' label s, x = .attr e' label s → label = "Affected: ".toList) := by
  intro x hx
  rw [List.mem_append, List.mem_append] at hx
  rcases hx with (hx | hx) | hx
  · unfold affectedLines at h
    split at h
    · cases h; cases hx
    · split at h <;> cases h
      cases List.mem_singleton.mp hx
      exact ⟨id, fun _ _ _ h => by cases h; rfl⟩
  · cases tree with
    | none => cases hx
    | some t => cases List.mem_singleton.mp hx; exact ⟨id, nofun⟩
  · cases List.mem_singleton.mp hx; exact ⟨fun h => h.elim, nofun⟩

theorem plain_tail {x : TermLine} (h : ∀ e' label s, x = .attr e' label s → label = "Affected: ".toList) : Plain x := by
  intro e s
  constructor <;> intro hx <;> exact absurd (h _ _ _ hx) (by decide)

theorem describes_item (T : TermLib) (p : Presenter) (f : Vulnerability ⊕ Warning) (i : Item) (hf : i.finding = f)
    (he : i.error = f.elim (fun _ => true) fun w => p.denyKinds.contains w.kind) (block : List TermLine)
    (h : i.lines T = .ok block) : Describes T p.denyKinds f block := by
  unfold Item.lines at h
  cases ha : affectedLines i.error i.affected with
  | err => rw [ha] at h; cases h
  | panic => rw [ha] at h; cases h
  | ok affected =>
    rw [ha] at h
    simp only [Outcome.ok.injEq] at h
    have ht := tail_lines i.error i.affected i.tree affected ha
    set tl := affected ++ (match i.tree with | some t => [.tree i.error t] | none => []) ++ [.blank] with htl
    cases f with
    | inl v =>
      rw [hf] at h
      have hb : block = [.attr true "Crate:    ".toList v.package.name,
          .attr true "Version:  ".toList (T.version v.package.version)] ++ metadataLines T true v.advisory ++
          (.attr true "Solution: ".toList (solution T v) :: tl) := by
        rw [← h, htl]; simp only [vulnerabilityLines, List.append_assoc, List.cons_append, List.nil_append]; rfl
      have hI : Introduces T v.advisory true block := by
        rw [hb]
        refine introduces _ _ _ _ _ ?_ ?_
        · intro x hx
          simp only [List.mem_cons, List.not_mem_nil, or_false] at hx
          rcases hx with rfl | rfl <;> exact plain_attr (by decide) (by decide)
        · intro x hx
          rcases List.mem_cons.mp hx with rfl | hx
          · exact plain_attr (by decide) (by decide)
          · exact plain_tail (ht x hx).2
      refine ⟨?_, ?_, ?_, ?_, fun _ hw => (Sum.inl_ne_inr hw).elim, fun _ _ hw => (Sum.inl_ne_inr hw).elim,
        fun _ _ _ => trivial, ?_⟩
      · rw [hb]; exact .head _
      · rw [hb]; exact .tail _ (.head _)
      · intro v' hv; cases hv; exact hI
      · intro v' hv; cases hv
        intro s
        constructor
        · intro hs
          rw [hb, List.mem_append, List.mem_append] at hs
          rcases hs with (hs | hs) | hs
          · simp only [List.mem_cons, List.not_mem_nil, or_false, TermLine.attr.injEq] at hs
            rcases hs with hs | hs <;> exact absurd hs.2.1 (by decide)
          · rcases metadataLines_label _ _ _ _ _ _ hs with h | h | h | h | h <;> exact absurd h (by decide)
          · rcases List.mem_cons.mp hs with hs | hs
            · rw [TermLine.attr.injEq] at hs; exact hs.2.2
            · exact absurd ((ht _ hs).2 _ _ _ rfl) (by decide)
        · rintro rfl
          rw [hb]; exact List.mem_append_right _ (.head _)
      · exact ⟨_, by rw [hb, htl, ← List.cons_append, ← List.append_assoc]⟩
    | inr w =>
      rw [hf] at h
      have hb : block = [.attr i.error "Crate:    ".toList w.package.name,
          .attr i.error "Version:  ".toList (T.version w.package.version),
          .attr i.error "Warning:  ".toList w.kind.asStr] ++
          (match w.advisory with | some m => metadataLines T i.error m | none => []) ++ tl := by
        rw [← h, htl]; simp only [warningLines, List.append_assoc, List.cons_append, List.nil_append]; rfl
      have he' : i.error = p.denyKinds.contains w.kind := he
      have hhead : ∀ x ∈ [TermLine.attr i.error "Crate:    ".toList w.package.name,
          .attr i.error "Version:  ".toList (T.version w.package.version),
          .attr i.error "Warning:  ".toList w.kind.asStr], Plain x ∧ (Red x → i.error = true) := by
        intro x hx
        simp only [List.mem_cons, List.not_mem_nil, or_false] at hx
        rcases hx with rfl | rfl | rfl <;> exact ⟨plain_attr (by decide) (by decide), id⟩
      refine ⟨?_, ?_, fun _ hw => (Sum.inr_ne_inl hw).elim, fun _ hw => (Sum.inr_ne_inl hw).elim, ?_, ?_, ?_, ?_⟩
      · rw [hb, ← he]; exact .head _
      · rw [hb, ← he]; exact .tail _ (.head _)
      · intro w' hw; cases hw
        intro s
        constructor
        · intro hs
          rw [hb, List.mem_append, List.mem_append] at hs
          rcases hs with (hs | hs) | hs
          · simp only [List.mem_cons, List.not_mem_nil, or_false, TermLine.attr.injEq] at hs
            rcases hs with hs | hs | hs
            · exact absurd hs.2.1 (by decide)
            · exact absurd hs.2.1 (by decide)
            · exact hs.2.2
          · split at hs
            · rcases metadataLines_label _ _ _ _ _ _ hs with h | h | h | h | h <;> exact absurd h (by decide)
            · cases hs
          · exact absurd ((ht _ hs).2 _ _ _ rfl) (by decide)
        · rintro rfl
          rw [hb, ← he']; exact .tail _ (.tail _ (.head _))
      · intro w' m hw hm; cases hw
        rw [hb, hm, ← he']
        exact introduces _ _ _ _ _ (fun x hx => (hhead x hx).1) (fun x hx => plain_tail (ht x hx).2)
      · intro x hx hr
        show w.kind ∈ p.denyKinds
        suffices hh : i.error = true by rw [he'] at hh; exact List.contains_iff_mem.mp hh
        rw [hb, List.mem_append, List.mem_append] at hx
        rcases hx with (hx | hx) | hx
        · exact (hhead x hx).2 hr
        · split at hx
          · exact metadataLines_red _ _ _ x hx hr
          · cases hx
        · exact (ht x hx).1 hr
      · exact ⟨_, by rw [hb, htl, ← List.append_assoc]⟩

/-- What `print_report` hands over to the loop that prints. -/
theorem printItems_forall (C : Codec) (t : Lock.Tree) (es : List (Package × (Option Str → Item))) (p p' : Presenter)
    (items : List Item) (h : printItems C t p es = .ok (p', items)) :
    List.Forall₂ (fun e i => ∃ tree, i = e.2 tree) es items := by
  induction es generalizing p items with
  | nil => cases h; exact .nil
  | cons e es ih =>
    obtain ⟨pkg, mk⟩ := e
    unfold printItems at h
    cases h1 : p.printTree C pkg t with
    | err => rw [h1] at h; cases h
    | panic => rw [h1] at h; cases h
    | ok x =>
      obtain ⟨p1, tree⟩ := x
      rw [h1] at h
      simp only at h
      cases h2 : printItems C t p1 es with
      | err => rw [h2] at h; cases h
      | panic => rw [h2] at h; cases h
      | ok y =>
        obtain ⟨p2, its⟩ := y
        rw [h2] at h
        cases h
        exact .cons ⟨tree, rfl⟩ (ih p1 its h2)

theorem printReport_items (C : Codec) (p p' : Presenter) (r : Report) (l : Lockfile) (items : List Item)
    (v : Option Nat) (d al : Nat) (h : p.printReport C r l = .ok (p', .terminal items v d al)) :
    List.Forall₂ (fun f i => i.finding = f ∧
      i.error = f.elim (fun _ => true) (fun w => p.denyKinds.contains w.kind) ∧
      i.affected = f.elim (fun v => p.presentFunctions v.affected v.package.version)
        (fun w => p.presentFunctions w.affected w.package.version)) (findings r) items ∧
    v = (if r.vulnerabilities.found then some r.vulnerabilities.count else none) ∧ (d, al) = p.countWarnings r := by
  have hs := printReport_same C p p' r l _ h
  unfold Presenter.printReport at h
  split at h
  · cases h
  · cases h
  · split at h
    · cases h
    · cases h
    · split at h
      · cases h
      · cases h
      · rename_i p1 items1 h1
        split at h
        · cases h
        · cases h
        · rename_i p2 items2 h2
          cases h
          rw [printVulns_eq] at h1
          rw [printWarnings_eq] at h2
          have e1 := printItems_same C _ _ _ _ _ h1
          refine ⟨?_, rfl, ?_⟩
          · unfold findings
            refine List.rel_append ?_ ?_
            · have := printItems_forall C _ _ _ _ _ h1
              rw [List.forall₂_map_left_iff] at this ⊢
              exact this.imp fun v i ⟨tree, hi⟩ => by subst hi; exact ⟨rfl, rfl, rfl⟩
            · have := printItems_forall C _ _ _ _ _ h2
              rw [List.forall₂_map_left_iff] at this ⊢
              refine this.imp fun w i ⟨tree, hi⟩ => ?_
              subst hi
              refine ⟨rfl, ?_, ?_⟩
              · show p1.denyKinds.contains w.kind = _; rw [e1]; rfl
              · show p1.presentFunctions w.affected w.package.version = _; rw [e1]; rfl
          · show Presenter.countWarnings _ r = _
            rw [hs]; rfl

/-! ## The report -/

theorem count_denied (deny : List WarningKind) (w : WarningInfo) (hf : ∀ k ws, (k, ws) ∈ w → ∀ x ∈ ws, x.kind = k) :
    ((w.filter fun e => deny.contains e.1).map fun e => e.2.length).sum =
        (w.flatMap (·.2)).countP (fun x => deny.contains x.kind) ∧
    ((w.filter fun e => !deny.contains e.1).map fun e => e.2.length).sum =
        (w.flatMap (·.2)).countP (fun x => !deny.contains x.kind) := by
  induction w with
  | nil => exact ⟨rfl, rfl⟩
  | cons e w ih =>
    obtain ⟨k, ws⟩ := e
    obtain ⟨h1, h2⟩ := ih fun k ws h => hf k ws (.tail _ h)
    have hk := hf k ws (.head _)
    rw [List.filter_cons, List.filter_cons, List.flatMap_cons, List.countP_append, List.countP_append]
    cases hc : deny.contains k with
    | true =>
      have ha : ws.countP (fun x => deny.contains x.kind) = ws.length :=
        List.countP_eq_length.mpr fun x hx => by rw [hk x hx]; exact hc
      have hb : ws.countP (fun x => !deny.contains x.kind) = 0 :=
        List.countP_eq_zero.mpr fun x hx => by rw [hk x hx, hc]; simp
      simp only [if_true, Bool.not_true, Bool.false_eq_true, if_false, List.map_cons, List.sum_cons]
      rw [ha, hb, h1, h2]; omega
    | false =>
      have ha : ws.countP (fun x => deny.contains x.kind) = 0 :=
        List.countP_eq_zero.mpr fun x hx => by rw [hk x hx, hc]; simp
      have hb : ws.countP (fun x => !deny.contains x.kind) = ws.length :=
        List.countP_eq_length.mpr fun x hx => by rw [hk x hx, hc]; rfl
      simp only [if_true, Bool.not_false, Bool.false_eq_true, if_false, List.map_cons, List.sum_cons]
      rw [ha, hb, h1, h2]; omega

theorem affectedLines_ok (e : Bool) (l : List (List Str)) (h : ∀ path ∈ l, path ≠ []) :
    ∃ lines, affectedLines e l = .ok lines := by
  unfold affectedLines
  split
  · exact ⟨_, rfl⟩
  · have : ∃ r, Outcome.mapList FunctionPath.display l = .ok r := by
      rw [mapList_total]
      intro x hx
      cases x with
      | nil => exact absurd rfl (h _ hx)
      | cons a b => exact ⟨_, rfl⟩
    obtain ⟨r, hr⟩ := this
    rw [hr]; exact ⟨_, rfl⟩

theorem presentFunctions_sub (p : Presenter) (af : Option Affected) (v : Version) (path : List Str)
    (h : path ∈ p.presentFunctions af v) : ∃ a e, af = some a ∧ e ∈ a.functions ∧ e.1 = path := by
  unfold Presenter.presentFunctions at h
  split at h
  · cases h
  · unfold Bin.filterFunctions at h
    have := (List.mem_filter.mp h).1
    cases af with
    | none => cases this
    | some a =>
      obtain ⟨e, he, hx⟩ := List.mem_filterMap.mp this
      split at hx <;> cases hx
      exact ⟨a, e, rfl, he, rfl⟩

theorem totals_eq (path : Option Str) (n d al : Nat) :
    vulnerabilityTotal path (if n = 0 then none else some n) ++ warningTotals path d al = totals path n d al := by
  unfold totals warningTotals
  have hp : ∀ m, foundIn path m = place path m := by
    intro m; unfold foundIn place; cases path <;> rfl
  have hw : ∀ n, warningWord n = warningWords n := by
    intro n; unfold warningWord warningWords; by_cases h : n = 1 <;> simp [h]
  simp only [hp, hw]
  congr 1
  · by_cases h : n = 0
    · rw [if_pos h, if_pos h]; rfl
    · rw [if_neg h, if_neg h, ← hp]; rfl
  · congr 1
    · by_cases h : d = 0
      · rw [if_pos h, if_neg (by omega)]
      · rw [if_neg h, if_pos (by omega)]
    · by_cases h : al = 0
      · rw [if_pos h, if_neg (by omega)]
      · rw [if_neg h, if_pos (by omega)]

/-- **C73, the report.**  On the terminal every vulnerability and every warning of the report is described, in a block of
its own and in the order of the report, and then the totals are printed. -/
theorem C73_report (T : TermLib) (C : Codec) (p p' : Presenter) (r : Report) (l : Lockfile) (out : Printed)
    (h : p.printReport C r l = .ok (p', out)) (hfmt : p.config.format = .terminal)
    (hcount : r.vulnerabilities.count = r.vulnerabilities.list.length)
    (hfound : r.vulnerabilities.found = true ↔ r.vulnerabilities.list ≠ [])
    (hfiled : ∀ k ws, (k, ws) ∈ r.warnings → ∀ w ∈ ws, w.kind = k) (hpaths : NamedFunctions r) (path : Option Str) :
    ∃ blocks, List.Forall₂ (Describes T p.denyKinds) (findings r) blocks ∧
      out.screen T path = .ok (blocks.flatten ++ totals path r.vulnerabilities.list.length
        ((r.warnings.flatMap (·.2)).countP fun w => p.denyKinds.contains w.kind)
        ((r.warnings.flatMap (·.2)).countP fun w => !p.denyKinds.contains w.kind)) := by
  have hout : ∃ items v d al, out = .terminal items v d al := by
    unfold Presenter.printReport at h
    rw [hfmt] at h
    simp only at h
    split at h
    · cases h
    · cases h
    · split at h
      · cases h
      · cases h
      · split at h
        · cases h
        · cases h
        · cases h; exact ⟨_, _, _, _, rfl⟩
  obtain ⟨items, v, d, al, rfl⟩ := hout
  obtain ⟨hi, hv, hd⟩ := printReport_items C p p' r l items v d al h
  rw [countWarnings_eq] at hd
  obtain ⟨k1, k2⟩ := count_denied p.denyKinds r.warnings hfiled
  rw [k1, k2] at hd
  obtain ⟨hd1, hd2⟩ := Prod.mk.inj hd
  have hok : ∃ blocks, Outcome.mapList (Item.lines T) items = .ok blocks := by
    rw [mapList_total]
    intro i hmem
    obtain ⟨f, hf, hfi⟩ := forall2_left hi.flip hmem
    obtain ⟨lines, hl⟩ := affectedLines_ok i.error i.affected (by
      intro path hp
      rw [hfi.2.2] at hp
      cases f with
      | inl v =>
        obtain ⟨a, e, h1, h2, rfl⟩ := presentFunctions_sub _ _ _ _ hp
        exact hpaths _ hf a h1 e h2
      | inr w =>
        obtain ⟨a, e, h1, h2, rfl⟩ := presentFunctions_sub _ _ _ _ hp
        exact hpaths _ hf a h1 e h2)
    unfold Item.lines
    rw [hl]; exact ⟨_, rfl⟩
  obtain ⟨blocks, hb⟩ := hok
  refine ⟨blocks, ?_, ?_⟩
  · have hb' := (mapList_iff _ _ _).mp hb
    clear hv hb h
    generalize findings r = fs at hi
    induction hi generalizing blocks with
    | nil => cases hb'; exact .nil
    | cons hfi _ ih =>
      cases hb' with
      | cons hl hb' => exact .cons (describes_item T p _ _ hfi.1 hfi.2.1 _ hl) (ih _ hb')
  · have hv' : v = if r.vulnerabilities.list.length = 0 then none else some r.vulnerabilities.list.length := by
      rw [hv, hcount]
      by_cases hf : r.vulnerabilities.list = []
      · have : r.vulnerabilities.found = false := by
          cases hx : r.vulnerabilities.found
          · rfl
          · exact absurd hf (hfound.mp hx)
        rw [this, hf]; rfl
      · rw [hfound.mpr hf, if_pos rfl, if_neg fun h => hf (List.length_eq_zero_iff.mp h)]
    show (match Outcome.mapList (Item.lines T) items with
      | .ok blocks => Outcome.ok (blocks.flatten ++ vulnerabilityTotal path v ++ warningTotals path d al)
      | .err => Outcome.err
      | .panic => Outcome.panic) = _
    rw [hb]
    simp only
    rw [List.append_assoc, hv', hd1, hd2, totals_eq]

/-- **C73, errors.**  Something is marked as an error exactly if the findings make the run fail. -/
theorem C73_errors (T : TermLib) (C : Codec) (p p' : Presenter) (r : Report) (l : Lockfile) (out : Printed)
    (h : p.printReport C r l = .ok (p', out)) (hfmt : p.config.format = .terminal)
    (hcount : r.vulnerabilities.count = r.vulnerabilities.list.length)
    (hfound : r.vulnerabilities.found = true ↔ r.vulnerabilities.list ≠ [])
    (hfiled : ∀ k ws, (k, ws) ∈ r.warnings → ∀ w ∈ ws, w.kind = k) (hpaths : NamedFunctions r) (path : Option Str) :
    ∃ lines, out.screen T path = .ok lines ∧
      ((∃ x ∈ lines, Red x) ↔ p.shouldExitWithFailure r = true) := by
  obtain ⟨blocks, hb, hs⟩ := C73_report T C p p' r l out h hfmt hcount hfound hfiled hpaths path
  refine ⟨_, hs, ?_⟩
  rw [shouldExit_iff, hfound]
  have hex : (∃ k ws, (k, ws) ∈ r.warnings ∧ ws ≠ [] ∧ k ∈ p.denyKinds) ↔
      0 < (r.warnings.flatMap (·.2)).countP fun w => p.denyKinds.contains w.kind := by
    rw [List.countP_pos_iff]
    constructor
    · rintro ⟨k, ws, h1, h2, h3⟩
      obtain ⟨w, hw⟩ := List.exists_mem_of_ne_nil _ h2
      exact ⟨w, List.mem_flatMap.mpr ⟨_, h1, hw⟩, by rw [hfiled k ws h1 w hw]; exact List.contains_iff_mem.mpr h3⟩
    · rintro ⟨w, hw, hk⟩
      obtain ⟨⟨k, ws⟩, h1, h2⟩ := List.mem_flatMap.mp hw
      rw [hfiled k ws h1 w h2] at hk
      exact ⟨k, ws, h1, List.ne_nil_of_mem h2, List.contains_iff_mem.mp hk⟩
  rw [hex]
  constructor
  · rintro ⟨x, hx, hr⟩
    rcases List.mem_append.mp hx with hx | hx
    · obtain ⟨block, hbm, hxb⟩ := List.mem_flatten.mp hx
      obtain ⟨f, hf, hD⟩ := forall2_left hb.flip hbm
      have hc := hD.colour x hxb hr
      unfold findings at hf
      rcases List.mem_append.mp hf with hf | hf
      · obtain ⟨v, hv, rfl⟩ := List.mem_map.mp hf
        exact Or.inl (List.ne_nil_of_mem hv)
      · obtain ⟨w, hw, rfl⟩ := List.mem_map.mp hf
        refine Or.inr (hex.mp ?_)
        obtain ⟨⟨k, ws⟩, h1, h2⟩ := List.mem_flatMap.mp hw
        unfold inOrder at h1
        obtain ⟨k', -, hk'⟩ := List.mem_filterMap.mp h1
        obtain ⟨ws', hl, he⟩ := Option.map_eq_some_iff.mp hk'
        cases he
        have hmem : (k, ws) ∈ r.warnings := by
          obtain ⟨l1, l2, hl', -⟩ := List.lookup_eq_some_iff.mp hl
          rw [hl']; simp
        refine ⟨k, ws, hmem, List.ne_nil_of_mem h2, ?_⟩
        rw [← hfiled k ws hmem w h2]
        exact hc
    · unfold totals at hx
      rw [List.mem_append, List.mem_append] at hx
      rcases hx with hx | hx | hx
      · split at hx
        · cases hx
        · rename_i h0
          exact Or.inl fun e => h0 (by rw [e]; rfl)
      · split at hx
        · cases hx
        · rename_i h0
          exact Or.inr (by omega)
      · split at hx
        · cases hx
        · cases List.mem_singleton.mp hx
          exact absurd hr (by simp [Red])
  · have hred : ∀ x, x ∈ totals path r.vulnerabilities.list.length
        ((r.warnings.flatMap (·.2)).countP fun w => p.denyKinds.contains w.kind)
        ((r.warnings.flatMap (·.2)).countP fun w => !p.denyKinds.contains w.kind) → Red x → ∃ x ∈ blocks.flatten ++
        totals path r.vulnerabilities.list.length
        ((r.warnings.flatMap (·.2)).countP fun w => p.denyKinds.contains w.kind)
        ((r.warnings.flatMap (·.2)).countP fun w => !p.denyKinds.contains w.kind), Red x :=
      fun x h1 h2 => ⟨x, List.mem_append_right _ h1, h2⟩
    rintro (hv | hw)
    · have h0 : r.vulnerabilities.list.length ≠ 0 := fun h => hv (List.length_eq_zero_iff.mp h)
      by_cases h1 : r.vulnerabilities.list.length = 1
      · refine hred (.total true ("1 vulnerability found".toList ++ place path "!")) ?_ rfl
        unfold totals
        rw [if_neg h0, if_pos h1]
        exact List.mem_append_left _ (.head _)
      · refine hred (.total true (showNat r.vulnerabilities.list.length ++ " vulnerabilities found".toList ++ place path "!"))
          ?_ rfl
        unfold totals
        rw [if_neg h0, if_neg h1]
        exact List.mem_append_left _ (.head _)
    · generalize (r.warnings.flatMap (·.2)).countP (fun w => p.denyKinds.contains w.kind) = d at *
      refine hred (.total true (showNat d ++ " denied ".toList ++ warningWords d ++ " found".toList ++ place path "!")) ?_ rfl
      unfold totals
      refine List.mem_append_right _ (List.mem_append_left _ ?_)
      rw [if_neg (by omega)]
      exact .head _

/-! ## A run -/

theorem selfReport_nil (T : TermLib) (p : Presenter) (self : List Advisory) : p.selfReport T self = [] ↔ self = [] := by
  unfold Presenter.selfReport
  cases self <;> simp

theorem selfReport_red (T : TermLib) (p : Presenter) (self : List Advisory) :
    (∃ x ∈ p.selfReport T self, Red x) ↔ p.failureDueToSelf self = true := by
  unfold Presenter.selfReport Presenter.failureDueToSelf
  cases self with
  | nil => simp
  | cons a as =>
    simp only [List.isEmpty_cons, Bool.false_eq_true, if_false, Bool.not_false, Bool.true_and]
    constructor
    · rintro ⟨x, hx, hr⟩
      rcases List.mem_cons.mp hx with rfl | hx
      · exact hr
      · rcases List.mem_append.mp hx with hx | hx
        · obtain ⟨a, -, hx⟩ := List.mem_flatMap.mp hx
          exact metadataLines_red _ _ _ x hx hr
        · cases List.mem_singleton.mp hx; exact hr.elim
    · intro h
      exact ⟨_, .head _, h⟩

theorem total_lines (path : Option Str) (a b d : Nat) : ∀ x ∈ totals path a b d, ∃ error s, x = .total error s := by
  intro x hx
  unfold totals at hx
  rw [List.mem_append, List.mem_append] at hx
  rcases hx with hx | hx | hx
  · split at hx
    · cases hx
    · split at hx <;> (cases List.mem_singleton.mp hx; exact ⟨_, _, rfl⟩)
  · split at hx
    · cases hx
    · cases List.mem_singleton.mp hx; exact ⟨_, _, rfl⟩
  · split at hx
    · cases hx
    · cases List.mem_singleton.mp hx; exact ⟨_, _, rfl⟩

/-- **C73, a run.**  When the lockfile is found and read, the database loaded and the dependency tree can be built, a run
with terminal output describes every finding of the report, and marks something as an error (in the report or in the
report on the tool itself) exactly if it exits with status 1.  Advisories about the tool are always reported. -/
theorem C73_run (T : TermLib) (env : Env) (cmd : AuditCommand) (c : AuditConfig) (path : Str)
    (hloc : env.locate cmd.file = some path) (t : Db.Tree) (hco : env.checkout c = some t) (db : Db.Database)
    (h : Db.Database.open t = .ok db) (hval : ∀ a ∈ db.iter, Validated a)
    (hfun : ∀ a ∈ db.iter, ∀ af, a.affected = some af → ∀ e ∈ af.functions, e.1 ≠ []) (l : Lockfile)
    (hl : env.loadLock path = some l) (hpr : Printable c l) (hfmt : c.output.format = .terminal) :
    ∃ r out n blocks lines selfLines, runAudit env cmd c = (some out, .code n) ∧ Complete env c db l none r ∧
      runPrints T env cmd c = some (out, selfLines) ∧
      List.Forall₂ (Describes T (c.output.deny.flatMap DenyOption.warningKinds)) (findings r) blocks ∧
      out.screen T none = .ok lines ∧
      (∃ sums, lines = blocks.flatten ++ sums ∧ ∀ x ∈ sums, ∃ error s, x = .total error s) ∧
      (n = 1 ↔ ∃ x ∈ lines ++ selfLines, Red x) ∧ (n = 0 ↔ ¬ ∃ x ∈ lines ++ selfLines, Red x) ∧
      (selfLines ≠ [] ↔ HasSelfAdvisory env db) := by
  obtain ⟨a, e1, ha⟩ := new_ready env c t hco db h
  obtain ⟨r, i, hcomp, hready, h3, h4, hex, hok, -⟩ := audit_core env c t db h hval a ha l none
  obtain ⟨p', out, g1, g2, g3, g4⟩ := printReport_total env.codec c a.presenter ha.config ha.displayed r l hpr h3 h4
  have haud := hok p' out g1
  obtain ⟨self, e3, hself⟩ := selfAdvisories_spec env t db h hval { a with index := i, presenter := p' } ha.database
  have hnamed : NamedFunctions r := by
    intro f hf af haf
    unfold findings at hf
    rcases List.mem_append.mp hf with hf | hf
    · obtain ⟨v, hv, rfl⟩ := List.mem_map.mp hf
      obtain ⟨p, -, ad, had, rfl, -⟩ := (hcomp.vulnerabilities v).mp hv
      exact hfun ad had af haf
    · obtain ⟨w, hw, rfl⟩ := List.mem_map.mp hf
      obtain ⟨⟨k, ws⟩, h1, h2⟩ := List.mem_flatMap.mp hw
      unfold inOrder at h1
      obtain ⟨k', -, hk'⟩ := List.mem_filterMap.mp h1
      obtain ⟨ws', hlk, he⟩ := Option.map_eq_some_iff.mp hk'
      cases he
      have hmem : (k, ws) ∈ r.warnings := by
        obtain ⟨l1, l2, hl', -⟩ := List.lookup_eq_some_iff.mp hlk
        rw [hl']; simp
      have hin : InReport r w := ⟨k, ws, hmem, h2⟩
      by_cases hy : w.kind = .yanked
      · have := (hcomp.yanked w hin hy).2.1
        have haf' : w.affected = some af := haf
        rw [this] at haf'; cases haf'
      · obtain ⟨p, -, ad, had, i, -, -, -, -, -, -, -, hwa, -⟩ := (hcomp.advisories w).mp ⟨hin, hy⟩
        exact hfun ad had af (by rw [← hwa]; exact haf)
  have hpf : a.presenter.config.format = .terminal := by rw [ha.config]; exact hfmt
  obtain ⟨blocks, b1, b2⟩ := C73_report T env.codec a.presenter p' r l out g1 hpf hcomp.count hcomp.found hcomp.filed hnamed none
  obtain ⟨lines, b3, b4⟩ := C73_errors T env.codec a.presenter p' r l out g1 hpf hcomp.count hcomp.found hcomp.filed hnamed none
  have hlines := b2
  rw [b3, Outcome.ok.injEq] at hlines
  have hp'k : p'.denyKinds = a.presenter.denyKinds := by rw [g2]
  have hshould : p'.shouldExitWithFailure r = a.presenter.shouldExitWithFailure r := by
    rw [Bool.eq_iff_iff, hex p' hp'k, hex a.presenter rfl]
  have hred : (∃ x ∈ lines ++ p'.selfReport T self, Red x) ↔
      (p'.shouldExitWithFailure r || p'.failureDueToSelf self) = true := by
    rw [Bool.or_eq_true, hshould, ← b4, ← selfReport_red T]
    simp only [List.mem_append, or_and_right, exists_or]
  have hrun : runAudit env cmd c =
      (some out, if (p'.shouldExitWithFailure r || p'.failureDueToSelf self) then .code 1 else .code 0) := by
    unfold runAudit
    rw [hloc]
    simp only
    rw [e1]
    simp only
    rw [hl]
    simp only
    rw [haud]
    simp only
    rw [e3]
  have hprints : runPrints T env cmd c = some (out, p'.selfReport T self) := by
    unfold runPrints
    rw [hloc]
    simp only
    rw [e1]
    simp only
    rw [hl]
    simp only
    rw [haud]
    simp only
    rw [e3]
    rfl
  have hpre : ∃ sums, lines = blocks.flatten ++ sums ∧ ∀ x ∈ sums, ∃ error s, x = .total error s :=
    ⟨_, hlines, total_lines _ _ _ _⟩
  have hs : p'.selfReport T self ≠ [] ↔ HasSelfAdvisory env db := by
    rw [← hself, ne_eq, ne_eq, selfReport_nil]
  rw [ha.denyKinds] at b1
  by_cases hf : (p'.shouldExitWithFailure r || p'.failureDueToSelf self) = true
  · refine ⟨r, out, 1, blocks, lines, _, by rw [hrun, if_pos hf], hcomp, hprints, b1, b3, hpre, ?_, ?_, hs⟩
    · rw [hred]; simp [hf]
    · rw [hred]; simp [hf]
  · refine ⟨r, out, 0, blocks, lines, _, by rw [hrun, if_neg hf], hcomp, hprints, b1, b3, hpre, ?_, ?_, hs⟩
    · rw [hred]; simp [hf]
    · rw [hred]; simp [hf]

end Verif.Props
