import Verif.Spec.Lockfile
import Verif.Props.Checksum
import Verif.Props.SourceCmp

/-!
# Lemmas about reading and writing `Cargo.lock`
-/

namespace Verif.Lock

open Verif.Spec Verif.Semver

/-! ### Words -/

theorem splitWs_word {w : Str} (h : IsWord w) : splitWs w = [w] := by
  obtain ⟨hne, hw⟩ := h
  induction w with
  | nil => exact absurd rfl hne
  | cons c s ih =>
    have hc := hw c (by simp)
    unfold splitWs
    rw [hc]
    cases s with
    | nil => rfl
    | cons d t =>
      have hd := hw d (by simp)
      have := ih (by simp) (fun x hx => hw x (by simp [hx]))
      simp only [hd]
      rw [this]
      rfl

theorem splitWs_ws {c : Char} (h : isWs c = true) (s : Str) : splitWs (c :: s) = splitWs s := by
  conv => lhs; rw [splitWs.eq_def]
  simp only [h, if_true]

theorem splitWs_last {c d : Char} (h : isWs c = false) (h' : isWs d = true) (s : Str) :
    splitWs (c :: d :: s) = [c] :: splitWs (d :: s) := by
  conv => lhs; rw [splitWs.eq_def]
  simp only [h, h', if_true, Bool.false_eq_true, if_false]

theorem splitWs_inner {c d : Char} (h : isWs c = false) (h' : isWs d = false) (s : Str) {w : Str} {ws : List Str}
    (hr : splitWs (d :: s) = w :: ws) : splitWs (c :: d :: s) = (c :: w) :: ws := by
  conv => lhs; rw [splitWs.eq_def]
  simp only [h, h', Bool.false_eq_true, if_false, hr]

theorem splitWs_word_sp {w : Str} (h : IsWord w) (t : Str) : splitWs (w ++ ' ' :: t) = w :: splitWs t := by
  have hsp : isWs ' ' = true := by decide
  obtain ⟨hne, hw⟩ := h
  induction w with
  | nil => exact absurd rfl hne
  | cons c s ih =>
    have hc := hw c (by simp)
    cases s with
    | nil =>
      show splitWs (c :: ' ' :: t) = _
      rw [splitWs_last hc hsp, splitWs_ws hsp]
    | cons d r =>
      have hd := hw d (by simp)
      have := ih (by simp) (fun x hx => hw x (by simp [hx]))
      exact splitWs_inner hc hd _ this

theorem parseParen_show {C : Codec} {enc : Bool} {s : SourceId} (h : SourceOk C enc s) :
    parseParen C ('(' :: (s.asUrl enc ++ [')'])) = .ok s := by
  unfold parseParen
  simp only
  rw [if_pos (by simp), List.dropLast_concat]
  exact h.2.1

theorem isWord_paren {C : Codec} {enc : Bool} {s : SourceId} (h : SourceOk C enc s) :
    IsWord ('(' :: (s.asUrl enc ++ [')'])) := by
  refine ⟨by simp, ?_⟩
  intro c hc
  rcases List.mem_cons.mp hc with rfl | hc
  · decide
  · rcases List.mem_append.mp hc with hc | hc
    · exact h.2.2 c hc
    · rw [List.mem_singleton] at hc; subst hc; decide

/-- An encodable dependency whose parts can be written reads back from its text (a source without a version is
never written). -/
theorem EncDependency.fromStr_show {C : Codec} {enc : Bool} {d : EncDependency} (hn : IsWord d.name)
    (hv : ∀ v, d.version = some v → VersionOk C v) (hs : ∀ s, d.source = some s → SourceOk C enc s)
    (hvs : d.version = none → d.source = none) :
    EncDependency.fromStr C (d.show C enc) = .ok d := by
  obtain ⟨n, v, s⟩ := d
  simp only at hn hv hs hvs
  cases v with
  | none =>
    cases s with
    | some _ => cases hvs rfl
    | none =>
      have : EncDependency.show C enc ⟨n, none, none⟩ = n := by simp [EncDependency.show, parenPart]
      unfold EncDependency.fromStr
      rw [this, splitWs_word hn]
  | some v =>
    have hv' := hv v rfl
    have hp : parseVersionO C (C.showVersion v) = .ok v := by unfold parseVersionO; rw [hv'.1]
    cases s with
    | none =>
      have : EncDependency.show C enc ⟨n, some v, none⟩ = n ++ ' ' :: C.showVersion v := by
        simp [EncDependency.show, parenPart]
      unfold EncDependency.fromStr
      rw [this, splitWs_word_sp hn, splitWs_word hv'.2]
      simp only
      rw [hp]
    | some s =>
      have hs' := hs s rfl
      have : EncDependency.show C enc ⟨n, some v, some s⟩ =
          n ++ ' ' :: (C.showVersion v ++ ' ' :: ('(' :: (s.asUrl enc ++ [')']))) := by
        simp [EncDependency.show, parenPart]
      unfold EncDependency.fromStr
      rw [this, splitWs_word_sp hn, splitWs_word_sp hv'.2, splitWs_word (isWord_paren hs')]
      simp only
      rw [hp]
      simp only
      rw [parseParen_show hs']

/-! ### Lists of results -/

theorem mapList_eq_ok {α β : Type} {f : α → Outcome β} {g : α → β} {l : List α}
    (h : ∀ a ∈ l, f a = .ok (g a)) : Outcome.mapList f l = .ok (l.map g) := by
  induction l with
  | nil => rfl
  | cons a l ih =>
    simp only [Outcome.mapList]
    rw [h a (by simp)]
    simp only
    rw [ih (fun b hb => h b (by simp [hb]))]
    rfl

theorem mapList_map {α β γ : Type} (f : β → Outcome γ) (g : α → β) (l : List α) :
    Outcome.mapList f (l.map g) = Outcome.mapList (fun a => f (g a)) l := by
  induction l with
  | nil => rfl
  | cons a l ih => simp only [List.map_cons, Outcome.mapList, ih]

theorem readOpt_map {α β : Type} {f : Str → Outcome β} {g : α → Str} {h : α → β} {o : Option α}
    (hh : ∀ a, o = some a → f (g a) = .ok (h a)) : readOpt f (o.map g) = .ok (o.map h) := by
  cases o with
  | none => rfl
  | some a => simp only [Option.map_some, readOpt]; rw [hh a rfl]

/-! ### Resolving -/

theorem encSource_id {s : Option SourceId} (h : ∀ x, s = some x → x.kind ≠ .path) : encSource s = s := by
  cases s with
  | none => rfl
  | some x => unfold encSource; simp only; rw [if_neg (h x rfl)]

theorem v2_name (d : EncDependency) (ps : List Package) : (d.v2 ps).name = d.name := by
  unfold EncDependency.v2
  simp only
  split
  · rfl
  · split
    · rfl
    · split <;> rfl

theorem filter_length_one {α : Type} {p : α → Bool} {l : List α} (h : (l.filter p).length = 1) :
    ∃ a, l.filter p = [a] := by
  match hl : l.filter p, h with
  | [a], _ => exact ⟨a, rfl⟩

/-- Keeps name, version and source. -/
def Keeps (f : Package → EncPackage) : Prop :=
  ∀ p, (f p).name = p.name ∧ (f p).version = p.version ∧ (f p).source = p.source

theorem find?_name {f : Package → EncPackage} (hf : Keeps f) (ps : List Package) (n : Str) :
    (ps.map f).find? (EncDependency.answeredBy ⟨n, none, none⟩) =
      (ps.find? (fun q => decide (q.name = n))).map f := by
  rw [List.find?_map]
  congr 2
  funext q
  simp [EncDependency.answeredBy, (hf q).1]

theorem find?_nameVersion {f : Package → EncPackage} (hf : Keeps f) (ps : List Package) (n : Str)
    (v : Version) :
    (ps.map f).find? (EncDependency.answeredBy ⟨n, some v, none⟩) =
      (ps.find? (fun q => decide (q.name = n ∧ q.version = v))).map f := by
  rw [List.find?_map]
  congr 2
  funext q
  simp [EncDependency.answeredBy, (hf q).1, (hf q).2.1]
  congr 1
  exact decide_eq_decide.mpr eq_comm

theorem find?_source (rs : List EncPackage) (n : Str) (v : Option Version) (s : SourceId) :
    rs.find? (EncDependency.answeredBy ⟨n, v, some s⟩) = none := by
  rw [List.find?_eq_none]
  intro x _
  simp [EncDependency.answeredBy]

/-- Writing the shortest reference to a package of the list and resolving it gives the package back, exactly
when the reference is not shadowed. -/
theorem resolve_v2_iff {f : Package → EncPackage} (hf : Keeps f) {ps : List Package} {d : Dependency}
    (hd : Names ps d) (hs : ∀ x, d.source = some x → x.kind ≠ .path) :
    ((EncDependency.ofDependency d).v2 ps).resolve (ps.map f) = .ok d ↔ NotShadowed ps d := by
  obtain ⟨q, hq, hqn, hqv, hqs⟩ := hd
  have hsrc : encSource d.source = d.source := encSource_id hs
  obtain ⟨n, v, s⟩ := d
  simp only at hqn hqv hqs hsrc hs
  unfold EncDependency.ofDependency EncDependency.v2 NotShadowed
  simp only [hsrc]
  split
  · -- one package of that name
    rename_i h1
    obtain ⟨a, ha⟩ := filter_length_one h1
    have hqa : q = a := by
      have : q ∈ ps.filter (fun p => decide (p.name = n)) := List.mem_filter.mpr ⟨hq, decide_eq_true hqn⟩
      rw [ha, List.mem_singleton] at this; exact this
    subst hqa
    have hfind : ps.find? (fun p => decide (p.name = n)) = some q := by
      rw [← List.head?_filter, ha]; rfl
    unfold EncDependency.resolve
    rw [find?_name hf, hfind]
    simp only [Option.map_some]
    rw [(hf q).1, (hf q).2.1, (hf q).2.2, hqn, hqv, hqs]
    simp only [true_iff]
    cases s with
    | some x => exact Or.inl (by simp)
    | none =>
      right
      intro q' hq'
      have hm := List.mem_of_find?_eq_some hq'
      have hp := List.find?_some hq'
      have : q' ∈ ps.filter (fun p => decide (p.name = n)) :=
        List.mem_filter.mpr ⟨hm, decide_eq_true (of_decide_eq_true hp).1⟩
      rw [ha, List.mem_singleton] at this
      rw [this]; exact hqs
  · split
    · -- one package of that name and version
      rename_i h2
      obtain ⟨a, ha⟩ := filter_length_one h2
      rw [List.filter_filter] at ha
      have hcond : (fun p : Package => decide (p.version = v) && decide (p.name = n)) =
          (fun p : Package => decide (p.name = n ∧ p.version = v)) := by
        funext p; rw [Bool.and_comm, ← Bool.decide_and]
      rw [hcond] at ha
      have hqa : q = a := by
        have : q ∈ ps.filter (fun p => decide (p.name = n ∧ p.version = v)) :=
          List.mem_filter.mpr ⟨hq, decide_eq_true ⟨hqn, hqv⟩⟩
        rw [ha, List.mem_singleton] at this; exact this
      subst hqa
      have hfind : ps.find? (fun p => decide (p.name = n ∧ p.version = v)) = some q := by
        rw [← List.head?_filter, ha]; rfl
      unfold EncDependency.resolve
      rw [find?_nameVersion hf, hfind]
      simp only [Option.map_some]
      rw [(hf q).1, (hf q).2.1, (hf q).2.2, hqn, hqv, hqs]
      simp only [true_iff]
      cases s with
      | some x => exact Or.inl (by simp)
      | none => right; intro q' hq'; cases hq'; exact hqs
    · cases s with
      | some x =>
        unfold EncDependency.resolve
        rw [find?_source]
        simp
      | none =>
        unfold EncDependency.resolve
        rw [find?_nameVersion hf]
        cases hfind : ps.find? (fun p => decide (p.name = n ∧ p.version = v)) with
        | none =>
          exfalso
          have := List.find?_eq_none.mp hfind q hq
          exact this (decide_eq_true ⟨hqn, hqv⟩)
        | some q' =>
          have hp0 := List.find?_some hfind
          have hp := of_decide_eq_true hp0
          simp only [Option.map_some]
          rw [(hf q').1, (hf q').2.1, (hf q').2.2, hp.1, hp.2]
          simp

/-! ### Reading what was written -/

theorem v2_parts {d : Dependency} {ps : List Package} (hs : ∀ x, d.source = some x → x.kind ≠ .path) :
    let e := (EncDependency.ofDependency d).v2 ps
    e.name = d.name ∧ (∀ v, e.version = some v → v = d.version) ∧
      (∀ s, e.source = some s → d.source = some s) ∧ (e.version = none → e.source = none) := by
  have hsrc : encSource d.source = d.source := encSource_id hs
  refine ⟨v2_name _ _, ?_⟩
  simp only [EncDependency.v2, EncDependency.ofDependency, hsrc]
  split
  · simp
  · split <;> simp

theorem read_dependency {C : Codec} {enc : Bool} {d : Dependency} {ps : List Package}
    (h : DependencyOk C enc d) :
    EncDependency.fromStr C (((EncDependency.ofDependency d).v2 ps).show C enc) =
      .ok ((EncDependency.ofDependency d).v2 ps) := by
  obtain ⟨h1, h2, h3⟩ := h
  obtain ⟨p1, p2, p3, p4⟩ := v2_parts (d := d) (ps := ps) (fun x hx => (h3 x hx).1)
  apply EncDependency.fromStr_show
  · rw [p1]; exact h1
  · intro v hv; rw [p2 v hv]; exact h2
  · intro s hs; exact h3 s (p3 s hs)
  · exact p4

theorem read_dependency_full {C : Codec} {enc : Bool} {d : Dependency} (h : DependencyOk C enc d) :
    EncDependency.fromStr C ((EncDependency.ofDependency d).show C enc) =
      .ok (EncDependency.ofDependency d) := by
  obtain ⟨h1, h2, h3⟩ := h
  have hsrc : encSource d.source = d.source := encSource_id (fun x hx => (h3 x hx).1)
  apply EncDependency.fromStr_show
  · exact h1
  · intro v hv
    simp only [EncDependency.ofDependency, Option.some.injEq] at hv
    rw [← hv]; exact h2
  · intro s hs
    simp only [EncDependency.ofDependency, hsrc] at hs
    exact h3 s hs
  · intro h; simp [EncDependency.ofDependency] at h

theorem resolve_full {d : Dependency} (h : ∀ x, d.source = some x → x.kind ≠ .path) :
    (EncDependency.ofDependency d).resolve [] = .ok d := by
  have hsrc : encSource d.source = d.source := encSource_id h
  unfold EncDependency.resolve EncDependency.ofDependency
  simp [hsrc]

theorem parseVersionO_show {C : Codec} {v : Version} (h : VersionOk C v) :
    parseVersionO C (C.showVersion v) = .ok v := by
  unfold parseVersionO; rw [h.1]

theorem readOpt_source {C : Codec} {enc : Bool} {s : Option SourceId}
    (h : ∀ x, s = some x → SourceOk C enc x) :
    readOpt (SourceId.fromUrl C.url) (s.map (SourceId.asUrl enc)) = .ok s := by
  have := readOpt_map (f := SourceId.fromUrl C.url) (g := SourceId.asUrl enc) (h := id) (o := s)
    (fun a ha => (h a ha).2.1)
  rw [this]; simp

/-- A package table reads back, provided each of its dependency texts does. -/
theorem read_package {C : Codec} {enc : Bool} {e : EncPackage} (hv : VersionOk C e.version)
    (hs : ∀ s, e.source = some s → SourceOk C enc s) (hc : ∀ c, e.checksum = some c → c.length = 32)
    (hd : ∀ d ∈ e.dependencies, EncDependency.fromStr C (d.show C enc) = .ok d)
    (hr : ∀ r, e.replace = some r → e.dependencies = [] ∧ EncDependency.fromStr C (r.show C enc) = .ok r) :
    (e.emit C enc).read C = .ok e := by
  have h1 : parseVersionO C (C.showVersion e.version) = .ok e.version := parseVersionO_show hv
  have h2 := readOpt_source hs
  have h3 : readOpt Checksum.fromStr (e.checksum.map Checksum.show) = .ok e.checksum := by
    have := readOpt_map (f := Checksum.fromStr) (g := Checksum.show) (h := id) (o := e.checksum)
      (fun a ha => Props.C25_round_trip a (hc a ha))
    rw [this]; simp
  have h4 : Outcome.mapList (EncDependency.fromStr C) (e.dependencies.map (EncDependency.show C enc)) =
      .ok e.dependencies := by
    rw [mapList_map, mapList_eq_ok (g := id) hd]; simp
  have h5 : readOpt (EncDependency.fromStr C)
      (if e.dependencies.isEmpty then e.replace.map (EncDependency.show C enc) else none) = .ok e.replace := by
    cases hrep : e.replace with
    | none => simp [readOpt]
    | some r =>
      obtain ⟨g1, g2⟩ := hr r hrep
      rw [g1]
      simp only [List.isEmpty_nil, if_true, Option.map_some, readOpt]
      rw [g2]
  unfold PkgDoc.read EncPackage.emit
  simp only
  rw [h1, h2, h3, h4, h5]
  rfl

theorem read_patch {C : Codec} {d : Dependency} (hv : VersionOk C d.version)
    (hs : ∀ s, d.source = some s → SourceOk C false s) : (emitPatch C d).read C = .ok d := by
  have hsrc : encSource d.source = d.source := encSource_id (fun x hx => (hs x hx).1)
  unfold PatchDoc.read emitPatch
  simp only
  rw [parseVersionO_show hv, hsrc, readOpt_source hs]
  rfl

theorem resolveReplace_full {r : Option Dependency} (h : ∀ d, r = some d → ∀ x, d.source = some x → x.kind ≠ .path) :
    resolveReplace (r.map EncDependency.ofDependency) = .ok r := by
  cases r with
  | none => rfl
  | some d => simp only [Option.map_some, resolveReplace]; rw [resolve_full (h d rfl)]

theorem fromU32_toNat (v : ResolveVersion) : ResolveVersion.fromU32 v.toNat = .ok v := by
  cases v <;> rfl

theorem metaRemove_id {k : Str} {m : LockMetadata} (h : ∀ e ∈ m, e.1 ≠ k) : metaRemove k m = m := by
  unfold metaRemove
  rw [List.filter_eq_self]
  intro e he
  simpa using h e he

theorem foldl_id {α β : Type} {f : β → α → β} {b : β} {l : List α} (h : ∀ a ∈ l, f b a = b) :
    l.foldl f b = b := by
  induction l with
  | nil => rfl
  | cons a l ih =>
    rw [List.foldl_cons, h a (by simp), ih (fun x hx => h x (by simp [hx]))]

end Verif.Lock
