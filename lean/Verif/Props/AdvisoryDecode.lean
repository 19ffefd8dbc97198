import Verif.Lemmas.AdvisoryDecode
import Verif.Spec.AdvisoryDecode
import Verif.Props.Versions
import Verif.Props.AdvisoryFile
import Verif.Props.OsvExportExamples

/-!
# C68: the contents of an advisory file
-/

namespace Verif.Props

open Verif.Adv Verif.Lock Verif.Osv Verif.Semver Verif.Spec

theorem required_iff {α : Type} (t : TomlTable) (k : String) (f : Str → Outcome α) (x : α) :
    required t k (asString f) = .ok x ↔ FieldIs t k (fun s x => f s = .ok x) x := by
  unfold required FieldIs TomlTable.get
  cases h : t.lookup k.toList with
  | none => simp
  | some v => cases v <;> simp [asString]

theorem asStrings_iff {α : Type} (f : Str → Outcome α) (v : Toml) (xs : List α) :
    asStrings f v = .ok xs ↔ ArrayIs v (fun s x => f s = .ok x) xs := by
  unfold ArrayIs
  cases v with
  | arr l =>
    simp only [asStrings, Toml.arr.injEq, exists_eq_left']
    induction l generalizing xs with
    | nil =>
      simp only [Outcome.mapList, Outcome.ok.injEq, List.forall₂_nil_left_iff]
      exact eq_comm
    | cons e l ih =>
      unfold Outcome.mapList
      cases he : asString f e with
      | err =>
        refine ⟨fun h => by simp at h, fun h => ?_⟩
        cases h with
        | cons h1 h2 => obtain ⟨s, rfl, h1⟩ := h1; simp [asString, h1] at he
      | panic =>
        refine ⟨fun h => by simp at h, fun h => ?_⟩
        cases h with
        | cons h1 h2 => obtain ⟨s, rfl, h1⟩ := h1; simp [asString, h1] at he
      | ok y =>
        have hy : ∃ s, e = .str s ∧ f s = .ok y := by
          cases e with
          | str s => exact ⟨s, rfl, he⟩
          | _ => simp [asString] at he
        cases hl : Outcome.mapList (asString f) l with
        | err =>
          refine ⟨fun h => by simp at h, fun h => ?_⟩
          cases h with
          | cons h1 h2 => have := (ih _).mpr h2; rw [hl] at this; cases this
        | panic =>
          refine ⟨fun h => by simp at h, fun h => ?_⟩
          cases h with
          | cons h1 h2 => have := (ih _).mpr h2; rw [hl] at this; cases this
        | ok ys =>
          constructor
          · intro h
            cases h
            exact .cons hy ((ih _).mp hl)
          · intro h
            cases h with
            | cons h1 h2 =>
              have e2 := (ih _).mpr h2
              rw [hl] at e2
              cases e2
              obtain ⟨s, rfl, h1⟩ := h1
              simp only [asString] at he
              rw [he] at h1
              cases h1
              rfl
  | _ => simp [asStrings]

theorem list_iff {α : Type} (t : TomlTable) (k : String) (f : Str → Outcome α) (xs : List α) :
    defaulted t k [] (asStrings f) = .ok xs ↔ FieldList t k (fun s x => f s = .ok x) xs := by
  unfold defaulted FieldList TomlTable.get
  cases h : t.lookup k.toList with
  | none =>
    simp only [Outcome.ok.injEq, true_and, reduceCtorEq, false_and, exists_false, or_false]
    exact eq_comm
  | some v => simp [asStrings_iff]

theorem opt_iff {α : Type} (t : TomlTable) (k : String) (f : Str → Outcome α) (o : Option α) :
    defaulted t k none (asString fun s => Cvss.Outcome.map some (f s)) = .ok o ↔
      FieldOpt t k (fun s x => f s = .ok x) o := by
  unfold defaulted TomlTable.get
  cases h : t.lookup k.toList with
  | none => cases o <;> simp [FieldOpt, FieldIs, h]
  | some v =>
    cases v with
    | str s =>
      cases hf : f s <;> cases o <;> simp [FieldOpt, FieldIs, h, asString, hf, Cvss.Outcome.map]
    | _ => cases o <;> simp [FieldOpt, FieldIs, h, asString]

theorem ofOption_ok {α : Type} (o : Option α) (x : α) : ofOption o = .ok x ↔ o = some x := by
  cases o <;> simp [ofOption]

theorem text_iff (t : TomlTable) (k : String) :
    defaulted t k ([] : Str) (asString .ok) = .ok [] ↔ NotInToml t k := by
  unfold defaulted NotInToml TomlTable.get
  cases h : t.lookup k.toList with
  | none => simp
  | some v => cases v <;> simp [asString]

/-- The fields of `[advisory]`. -/
theorem metadata_iff (L : AdvLib) (t : TomlTable) (md : FileMetadata) :
    FileMetadata.decode L t = .ok md ↔ MetadataOf L t md ∧
      defaulted t "title" [] (asString .ok) = .ok md.title ∧
      defaulted t "description" [] (asString .ok) = .ok md.description := by
  have hinf : (defaulted t "informational" none (asString fun s => .ok (some (Informational.fromStr s)))
      = .ok md.informational) ↔ FieldOpt t "informational" (fun s x => Informational.fromStr s = x) md.informational := by
    have := opt_iff t "informational" (fun s => .ok (Informational.fromStr s)) md.informational
    simp only [Cvss.Outcome.map, Outcome.ok.injEq] at this
    exact this
  have hlic : (defaulted t "license" .ccZero10 (asString fun s => .ok (License.ofString s)) = .ok md.license) ↔
      ((t.lookup "license".toList = none ∧ md.license = .ccZero10) ∨
        FieldIs t "license" (fun s x => x.spdx = s ∧ ∀ o, x = .other o →
          s ≠ "CC0-1.0".toList ∧ s ≠ "CC-BY-4.0".toList) md.license) := by
    have hof : ∀ s x, License.ofString s = x ↔
        (x.spdx = s ∧ ∀ o, x = .other o → s ≠ "CC0-1.0".toList ∧ s ≠ "CC-BY-4.0".toList) := by
      intro s x
      unfold License.ofString
      constructor
      · intro h
        subst h
        split
        · rename_i h; exact ⟨h.symm, fun o ho => by cases ho⟩
        · split
          · rename_i h; exact ⟨h.symm, fun o ho => by cases ho⟩
          · rename_i h1 h2; exact ⟨rfl, fun o _ => ⟨h1, h2⟩⟩
      · rintro ⟨rfl, h⟩
        cases x with
        | ccZero10 => decide
        | ccBy40 => decide
        | other o => exact (if_neg (h o rfl).1).trans (if_neg (h o rfl).2)
    unfold defaulted FieldIs TomlTable.get
    cases h : t.lookup "license".toList with
    | none =>
      simp only [Outcome.ok.injEq, true_and, reduceCtorEq, false_and, exists_false, or_false]
      exact eq_comm
    | some v =>
      cases v with
      | str s =>
        simp only [asString, Outcome.ok.injEq, hof, reduceCtorEq, false_and, Option.some.injEq, Toml.str.injEq,
          exists_eq_left', false_or]
      | _ => simp [asString]
  have hexp : (defaulted t "expect-deleted" false asBool = .ok md.expectDeleted) ↔
      ((t.lookup "expect-deleted".toList = none ∧ md.expectDeleted = false) ∨
        t.lookup "expect-deleted".toList = some (.bool md.expectDeleted)) := by
    unfold defaulted TomlTable.get
    cases h : t.lookup "expect-deleted".toList with
    | none =>
      simp only [Outcome.ok.injEq, true_and, reduceCtorEq, or_false]
      exact eq_comm
    | some v => cases v <;> simp [asBool]
  rw [metadata_decode_iff]
  rw [required_iff, required_iff, required_iff, list_iff, list_iff, opt_iff, list_iff, list_iff, opt_iff, hinf,
    list_iff, opt_iff, opt_iff, opt_iff, hlic, hexp]
  simp only [ofOption_ok, Outcome.ok.injEq]
  constructor
  · rintro ⟨h1, h2, h3, h4, h5, h6, h7, h8, h9, h10, h11, h12, h13, h14, h15, h16, h17, h18⟩
    exact ⟨⟨h1, h2, h5, h6, h7, h8, h9, h10, h11, h12, h13, h14, h15, h16, h17, h18⟩, h3, h4⟩
  · rintro ⟨⟨h1, h2, h5, h6, h7, h8, h9, h10, h11, h12, h13, h14, h15, h16, h17, h18⟩, h3, h4⟩
    exact ⟨h1, h2, h3, h4, h5, h6, h7, h8, h9, h10, h11, h12, h13, h14, h15, h16, h17, h18⟩

theorem reqs_iff (L : AdvLib) (v : Toml) (rs : List VersionReq) :
    asStrings (fun s => ofOption (L.req s)) v = .ok rs ↔ ArrayIs v (ReadsReq L) rs := by
  rw [asStrings_iff]
  simp only [ofOption_ok]
  rfl

theorem mapList_iff {α β : Type} (f : α → Outcome β) (l : List α) (r : List β) :
    Outcome.mapList f l = .ok r ↔ List.Forall₂ (fun x y => f x = .ok y) l r := by
  induction l generalizing r with
  | nil =>
    simp only [Outcome.mapList, Outcome.ok.injEq, List.forall₂_nil_left_iff]
    exact eq_comm
  | cons x l ih =>
    unfold Outcome.mapList
    cases hx : f x with
    | err => refine ⟨fun h => by simp at h, fun h => ?_⟩; cases h with | cons h1 _ => rw [hx] at h1; cases h1
    | panic => refine ⟨fun h => by simp at h, fun h => ?_⟩; cases h with | cons h1 _ => rw [hx] at h1; cases h1
    | ok y =>
      cases hl : Outcome.mapList f l with
      | err =>
        refine ⟨fun h => by simp at h, fun h => ?_⟩
        cases h with | cons _ h2 => have := (ih _).mpr h2; rw [hl] at this; cases this
      | panic =>
        refine ⟨fun h => by simp at h, fun h => ?_⟩
        cases h with | cons _ h2 => have := (ih _).mpr h2; rw [hl] at this; cases this
      | ok ys =>
        constructor
        · intro h; cases h; exact .cons hx ((ih _).mp hl)
        · intro h
          cases h with
          | cons h1 h2 =>
            have := (ih _).mpr h2
            rw [hl] at this
            cases this
            rw [hx] at h1
            cases h1
            rfl

theorem function_iff (L : AdvLib) (kv : Str × Toml) (f : List Str × List VersionReq) :
    decodeFunction L kv = .ok f ↔ FunctionPath.fromStr kv.1 = .ok f.1 ∧ ArrayIs kv.2 (ReadsReq L) f.2 := by
  rw [← reqs_iff]
  unfold decodeFunction
  cases FunctionPath.fromStr kv.1 with
  | err => simp
  | panic => simp
  | ok p =>
    cases asStrings (fun s => ofOption (L.req s)) kv.2 with
    | err => simp
    | panic => simp
    | ok rs => simp [Prod.ext_iff]

/-- The fields of `[affected]`. -/
theorem affected_iff (L : AdvLib) (v : Toml) (a : Affected) :
    decodeAffected L v = .ok a ↔ ∃ t, v = .table t ∧ AffectedOf L t a := by
  cases v with
  | table t =>
    have hfun : (defaulted t "functions" [] (decodeFunctions L) = .ok a.functions) ↔
        ((t.lookup "functions".toList = none ∧ a.functions = []) ∨
        ∃ m, t.lookup "functions".toList = some (.table m) ∧
          List.Forall₂ (fun e f => FunctionPath.fromStr e.1 = .ok f.1 ∧ ArrayIs e.2 (ReadsReq L) f.2) m
            a.functions) := by
      unfold defaulted TomlTable.get
      cases h : t.lookup "functions".toList with
      | none =>
        simp only [Outcome.ok.injEq, true_and, reduceCtorEq, false_and, exists_false, or_false]
        exact eq_comm
      | some w =>
        cases w with
        | table m => simp [decodeFunctions, mapList_iff, function_iff]
        | _ => simp [decodeFunctions]
    have harch := list_iff t "arch" .ok a.arch
    have hos := list_iff t "os" .ok a.os
    simp only [Toml.table.injEq, exists_eq_left']
    constructor
    · intro h
      unfold decodeAffected at h
      dsimp only at h
      obtain ⟨arch, h1, h⟩ := bindOk h
      obtain ⟨os, h2, h⟩ := bindOk h
      obtain ⟨functions, h3, h⟩ := bindOk h
      cases h
      simp only [Outcome.ok.injEq] at harch hos
      exact ⟨harch.mp h1, hos.mp h2, hfun.mp h3⟩
    · rintro ⟨h1, h2, h3⟩
      simp only [Outcome.ok.injEq] at harch hos
      unfold decodeAffected
      dsimp only
      exact bindMk (harch.mpr h1) (bindMk (hos.mpr h2) (bindMk (hfun.mpr h3) rfl))
  | _ => simp [decodeAffected]

/-- The fields of `[versions]`. -/
theorem versions_iff (L : AdvLib) (v : Toml) (vs : Versions) :
    decodeVersions L v = .ok vs ↔ ∃ t, v = .table t ∧
      (∃ w, t.lookup "patched".toList = some w ∧ ArrayIs w (ReadsReq L) vs.patched) ∧
      FieldList t "unaffected" (ReadsReq L) vs.unaffected ∧
      Versions.new vs.patched vs.unaffected = .ok vs := by
  cases v with
  | table t =>
    simp only [Toml.table.injEq, exists_eq_left']
    have hu := list_iff t "unaffected" (fun s => ofOption (L.req s)) vs.unaffected
    simp only [ofOption_ok] at hu
    have hp : required t "patched" (asStrings fun s => ofOption (L.req s)) = .ok vs.patched ↔
        ∃ w, t.lookup "patched".toList = some w ∧ ArrayIs w (ReadsReq L) vs.patched := by
      unfold required TomlTable.get
      cases t.lookup "patched".toList with
      | none => simp
      | some w => simp [reqs_iff]
    constructor
    · intro h
      unfold decodeVersions at h
      dsimp only at h
      obtain ⟨p, h1, h⟩ := bindOk h
      obtain ⟨u, h2, h⟩ := bindOk h
      have h0 := h
      unfold Versions.new at h0
      obtain ⟨x, -, h3⟩ := bindOk h0
      cases h3
      exact ⟨hp.mp h1, hu.mp h2, h⟩
    · rintro ⟨h1, h2, h3⟩
      unfold decodeVersions
      dsimp only
      exact bindMk (hp.mpr h1) (bindMk (hu.mpr h2) h3)
  | _ => simp [decodeVersions]

theorem withHeader_iff (f front : Str) : withHeader f = front ↔
    ("[advisory]".toList <+: f ∧ front = f ∨ ¬ "[advisory]".toList <+: f ∧ front = "[advisory]\n".toList ++ f) := by
  unfold withHeader
  by_cases h : advisoryHeader.isPrefixOf f = true
  · have h' : "[advisory]".toList <+: f := List.isPrefixOf_iff_prefix.mp h
    rw [if_pos h]
    exact ⟨fun e => .inl ⟨h', e.symm⟩, fun e => e.elim (fun e => e.2.symm) (fun e => absurd h' e.1)⟩
  · have h' : ¬ "[advisory]".toList <+: f := fun h2 => h (List.isPrefixOf_iff_prefix.mpr h2)
    rw [if_neg h]
    exact ⟨fun e => .inr ⟨h', e.symm⟩, fun e => e.elim (fun e => absurd e.1 h') (fun e => e.2.symm)⟩

/-- **C68.**  A text parses as an advisory exactly if it is the text of that advisory, field by field. -/
theorem C68_parsed_iff (L : AdvLib) (text : Str) (a : AdvisoryFile) :
    AdvisoryFile.fromStr L text = .ok a ↔ AdvisoryOf L text a := by
  constructor
  · intro h
    obtain ⟨parts, t, m, md, v, h1, h2, h3, h4, h5, h6, h7, h8, h9, h10⟩ := fromStr_inv h
    obtain ⟨hm, ht, hd⟩ := (metadata_iff L m md).mp h4
    obtain ⟨tv, rfl, hv⟩ := (versions_iff L v _).mp h10
    refine ⟨parts, withHeader parts.frontMatter, t, m, tv, (C22_parse_iff _ _).mp h1, (withHeader_iff _ _).mp rfl, h2,
      h3, h9, ?_, ?_, ?_, ?_, ?_, ?_, hv⟩
    · rw [h7]
      exact ⟨hm.1, hm.2, hm.3, hm.4, hm.5, hm.6, hm.7, hm.8, hm.9, hm.10, hm.11, hm.12, hm.13, hm.14, hm.15, hm.16⟩
    · rw [h5] at ht; exact (text_iff _ _).mp ht
    · rw [h6] at hd; exact (text_iff _ _).mp hd
    · rw [h7]
    · rw [h7]
    · unfold defaulted TomlTable.get at h8
      cases hl : t.lookup "affected".toList with
      | none => rw [hl] at h8; exact .inl ⟨rfl, (Outcome.ok.inj h8).symm⟩
      | some w =>
        rw [hl] at h8
        simp only at h8
        cases hw : decodeAffected L w with
        | err => rw [hw] at h8; cases h8
        | panic => rw [hw] at h8; cases h8
        | ok af =>
          rw [hw] at h8
          obtain ⟨ta, rfl, haf⟩ := (affected_iff L w af).mp hw
          exact .inr ⟨ta, af, rfl, (Outcome.ok.inj h8).symm, haf⟩
  · rintro ⟨parts, front, t, m, v, h1, h2, h3, h4, h5, h6, h7, h8, h9, h10, h11, h12, h13, h14⟩
    unfold AdvisoryFile.fromStr
    refine bindMk ((C22_parse_iff _ _).mpr h1) (bindMk (a := t) (by rw [(withHeader_iff _ _).mpr h2, h3]; rfl) ?_)
    have hmd : FileMetadata.decode L m = .ok { a.metadata with title := [], description := [] } := by
      refine (metadata_iff L m _).mpr ⟨?_, (text_iff _ _).mpr h7, (text_iff _ _).mpr h8⟩
      exact ⟨h6.1, h6.2, h6.3, h6.4, h6.5, h6.6, h6.7, h6.8, h6.9, h6.10, h6.11, h6.12, h6.13, h6.14, h6.15, h6.16⟩
    have haf : defaulted t "affected" none (fun v => Cvss.Outcome.map some (decodeAffected L v)) = .ok a.affected := by
      unfold defaulted TomlTable.get
      rcases h11 with ⟨e1, e2⟩ | ⟨ta, af, e1, e2, e3⟩
      · rw [e1, e2]
      · rw [e1, e2]
        simp only
        rw [(affected_iff L _ af).mpr ⟨ta, rfl, e3⟩]
        rfl
    have hdec : AdvisoryFile.decode L t =
        .ok { metadata := { a.metadata with title := [], description := [] }, affected := a.affected,
              versions := a.versions } := by
      unfold AdvisoryFile.decode required TomlTable.get
      rw [h4, h5]
      refine bindMk hmd (bindMk haf (bindMk ((versions_iff L _ _).mpr ⟨v, rfl, h12, h13, h14⟩) rfl))
    refine bindMk hdec ?_
    simp only [List.isEmpty_nil, Bool.not_true, Bool.false_eq_true, if_false]
    rw [← h9, ← h10]

/-- **C68 (vulnerable versions).**  For a parsed advisory, `is_vulnerable` holds of exactly the versions that no
requirement of the arrays `patched` and `unaffected` of its front matter covers. -/
theorem C68_vulnerable (L : AdvLib) (hreq : ∀ s r, L.req s = some r → ReqWF r) (text : Str) (a : AdvisoryFile)
    (h : AdvisoryFile.fromStr L text = .ok a) (w : Version) :
    ∃ b, a.versions.isVulnerable w = .ok b ∧
      (b = true ↔ ∀ r ∈ a.versions.patched ++ a.versions.unaffected, ¬ Covers r w) := by
  obtain ⟨h1, h2⟩ := parsed_versions hreq h
  exact C01_is_vulnerable_iff _ _ _ h1 h2 w

/-- A text that meets the specification. -/
example : ∃ a, AdvisoryOf exportLib (exportDoc "one") a ∧ a.metadata.package = "foo".toList ∧
    a.metadata.aliases.map Id.display = ["CVE-2021-1234".toList] ∧ a.metadata.title = "T".toList ∧
    a.versions.patched.length = 1 := by
  have h : (match AdvisoryFile.fromStr exportLib (exportDoc "one") with
    | .ok a => decide (a.metadata.package = "foo".toList) &&
        (decide (a.metadata.aliases.map Id.display = ["CVE-2021-1234".toList]) &&
        (decide (a.metadata.title = "T".toList) && decide (a.versions.patched.length = 1)))
    | _ => false) = true := by decide +kernel
  cases ho : AdvisoryFile.fromStr exportLib (exportDoc "one") with
  | err => rw [ho] at h; cases h
  | panic => rw [ho] at h; cases h
  | ok a =>
    rw [ho] at h
    simp only [Bool.and_eq_true, decide_eq_true_eq] at h
    exact ⟨a, (C68_parsed_iff _ _ _).mp ho, h.1, h.2.1, h.2.2.1, h.2.2.2⟩

end Verif.Props
