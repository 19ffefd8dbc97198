import Verif.Props.LinterGate
import Verif.Props.AdvisoryFile
import Verif.Spec.Database

/-!
# What is known of an advisory that was parsed
-/

namespace Verif.Adv

open Verif.Props Verif.Spec Verif.Osv Verif.Semver Verif.Lock

theorem bindMk {α β : Type} {x : Outcome α} {f : α → Outcome β} {a : α} {r : Outcome β} (h : x = .ok a)
    (h' : f a = r) : (x >>= f) = r := by rw [h]; exact h'

/-- The metadata is decoded key by key. -/
theorem metadata_decode_iff (L : AdvLib) (t : TomlTable) (md : FileMetadata) :
    FileMetadata.decode L t = .ok md ↔
      required t "id" (asString Id.fromStr) = .ok md.id ∧
      required t "package" (asString .ok) = .ok md.package ∧
      defaulted t "title" [] (asString .ok) = .ok md.title ∧
      defaulted t "description" [] (asString .ok) = .ok md.description ∧
      required t "date" (asString (DateText.fromStr L.civil)) = .ok md.date ∧
      defaulted t "aliases" [] (asStrings Id.fromStr) = .ok md.aliases ∧
      defaulted t "related" [] (asStrings Id.fromStr) = .ok md.related ∧
      defaulted t "collection" none
        (asString fun s => Cvss.Outcome.map some (ofOption (Collection.fromStr s))) = .ok md.collection ∧
      defaulted t "categories" [] (asStrings fun s => .ok (Category.fromStr s)) = .ok md.categories ∧
      defaulted t "keywords" [] (asStrings .ok) = .ok md.keywords ∧
      defaulted t "cvss" none (asString fun s => Cvss.Outcome.map some (Cvss.Cvss.fromStr s)) = .ok md.cvss ∧
      defaulted t "informational" none
        (asString fun s => .ok (some (Informational.fromStr s))) = .ok md.informational ∧
      defaulted t "references" [] (asStrings fun s => ofOption (Url.parse L.url s)) = .ok md.references ∧
      defaulted t "source" none
        (asString fun s => Cvss.Outcome.map some (SourceId.fromUrl L.url s)) = .ok md.source ∧
      defaulted t "url" none
        (asString fun s => Cvss.Outcome.map some (ofOption (Url.parse L.url s))) = .ok md.url ∧
      defaulted t "withdrawn" none
        (asString fun s => Cvss.Outcome.map some (DateText.fromStr L.civil s)) = .ok md.withdrawn ∧
      defaulted t "license" .ccZero10 (asString fun s => .ok (License.ofString s)) = .ok md.license ∧
      defaulted t "expect-deleted" false asBool = .ok md.expectDeleted := by
  unfold FileMetadata.decode
  constructor
  · intro h
    obtain ⟨id, h1, h⟩ := bindOk h
    obtain ⟨package, h2, h⟩ := bindOk h
    obtain ⟨title, h3, h⟩ := bindOk h
    obtain ⟨description, h4, h⟩ := bindOk h
    obtain ⟨date, h5, h⟩ := bindOk h
    obtain ⟨aliases, h6, h⟩ := bindOk h
    obtain ⟨related, h7, h⟩ := bindOk h
    obtain ⟨collection, h8, h⟩ := bindOk h
    obtain ⟨categories, h9, h⟩ := bindOk h
    obtain ⟨keywords, h10, h⟩ := bindOk h
    obtain ⟨cvss, h11, h⟩ := bindOk h
    obtain ⟨informational, h12, h⟩ := bindOk h
    obtain ⟨references, h13, h⟩ := bindOk h
    obtain ⟨source, h14, h⟩ := bindOk h
    obtain ⟨url, h15, h⟩ := bindOk h
    obtain ⟨withdrawn, h16, h⟩ := bindOk h
    obtain ⟨license, h17, h⟩ := bindOk h
    obtain ⟨expectDeleted, h18, h⟩ := bindOk h
    cases h
    exact ⟨h1, h2, h3, h4, h5, h6, h7, h8, h9, h10, h11, h12, h13, h14, h15, h16, h17, h18⟩
  · rintro ⟨h1, h2, h3, h4, h5, h6, h7, h8, h9, h10, h11, h12, h13, h14, h15, h16, h17, h18⟩
    exact bindMk h1 <| bindMk h2 <| bindMk h3 <| bindMk h4 <| bindMk h5 <| bindMk h6 <| bindMk h7 <| bindMk h8 <|
      bindMk h9 <| bindMk h10 <| bindMk h11 <| bindMk h12 <| bindMk h13 <| bindMk h14 <| bindMk h15 <|
      bindMk h16 <| bindMk h17 <| bindMk h18 rfl

/-- What an advisory file consists of. -/
theorem fromStr_inv {L : AdvLib} {s : Str} {a : AdvisoryFile} (h : AdvisoryFile.fromStr L s = .ok a) :
    ∃ parts t m md v, Parts.parse s = .ok parts ∧ L.toml (withHeader parts.frontMatter) = some t ∧
      t.get "advisory" = some (.table m) ∧ FileMetadata.decode L m = .ok md ∧ md.title = [] ∧ md.description = [] ∧
      a.metadata = { md with title := parts.title, description := parts.description } ∧
      defaulted t "affected" none (fun v => Cvss.Outcome.map some (decodeAffected L v)) = .ok a.affected ∧
      t.get "versions" = some v ∧ decodeVersions L v = .ok a.versions := by
  unfold AdvisoryFile.fromStr at h
  obtain ⟨parts, hp, h⟩ := bindOk h
  obtain ⟨t, ht, h⟩ := bindOk h
  obtain ⟨a0, ha, h⟩ := bindOk h
  unfold AdvisoryFile.decode at ha
  obtain ⟨md, h1, ha⟩ := bindOk ha
  obtain ⟨af, h2, ha⟩ := bindOk ha
  obtain ⟨vs, h3, ha⟩ := bindOk ha
  cases ha
  have ht' : L.toml (withHeader parts.frontMatter) = some t := by
    cases e : L.toml (withHeader parts.frontMatter) with
    | none => rw [e] at ht; cases ht
    | some u => rw [e] at ht; cases ht; rfl
  unfold required at h1 h3
  cases e1 : t.get "advisory" with
  | none => rw [e1] at h1; cases h1
  | some va =>
    rw [e1] at h1
    cases e3 : t.get "versions" with
    | none => rw [e3] at h3; cases h3
    | some vv =>
      rw [e3] at h3
      cases va with
      | table m =>
        dsimp only at h
        by_cases c1 : md.title.isEmpty = true
        · by_cases c2 : md.description.isEmpty = true
          · rw [if_neg (by simp [c1]), if_neg (by simp [c2])] at h
            cases h
            exact ⟨parts, t, m, md, vv, hp, ht', e1, h1, List.isEmpty_iff.mp c1, List.isEmpty_iff.mp c2, rfl, h2,
              e3, h3⟩
          · rw [if_neg (by simp [c1]), if_pos (by simpa using c2)] at h
            cases h
        · rw [if_pos (by simpa using c1)] at h
          cases h
      | _ => cases h1

theorem mapList_all {α β : Type} {f : α → Outcome β} {P : β → Prop} (hf : ∀ x y, f x = .ok y → P y) :
    ∀ {l : List α} {r : List β}, Outcome.mapList f l = .ok r → ∀ y ∈ r, P y := by
  intro l
  induction l with
  | nil => intro r h; cases h; intro y hy; cases hy
  | cons x l ih =>
    intro r h
    unfold Outcome.mapList at h
    cases hy : f x with
    | err => rw [hy] at h; cases h
    | panic => rw [hy] at h; cases h
    | ok y =>
    rw [hy] at h
    cases hys : Outcome.mapList f l with
    | err => rw [hys] at h; cases h
    | panic => rw [hys] at h; cases h
    | ok ys =>
    rw [hys] at h
    cases h
    intro z hz
    rcases List.mem_cons.mp hz with rfl | hz
    · exact hf _ _ hy
    · exact ih hys z hz

theorem asStrings_all {α : Type} {f : Str → Outcome α} {P : α → Prop} (hf : ∀ s y, f s = .ok y → P y) {v : Toml}
    {r : List α} (h : asStrings f v = .ok r) : ∀ y ∈ r, P y := by
  cases v with
  | arr l =>
    refine mapList_all (f := asString f) (fun x y hx => ?_) h
    cases x with
    | str s => exact hf s y hx
    | _ => cases hx
  | _ => cases h

theorem defaulted_opt {α : Type} {t : TomlTable} {k : String} {g : Str → Outcome α} {r : Option α}
    (h : defaulted t k none (asString fun s => Cvss.Outcome.map some (g s)) = .ok r) :
    ∀ x, r = some x → ∃ s, g s = .ok x := by
  unfold defaulted at h
  intro x hx
  subst hx
  cases e : t.get k with
  | none => rw [e] at h; cases h
  | some v =>
    rw [e] at h
    cases v with
    | str s =>
      simp only [asString] at h
      cases hg : g s with
      | ok y => rw [hg] at h; cases h; exact ⟨s, hg⟩
      | err => rw [hg] at h; cases h
      | panic => rw [hg] at h; cases h
    | _ => cases h

theorem required_string {α : Type} {t : TomlTable} {k : String} {g : Str → Outcome α} {x : α}
    (h : required t k (asString g) = .ok x) : ∃ s, g s = .ok x := by
  unfold required at h
  cases e : t.get k with
  | none => rw [e] at h; cases h
  | some v =>
    rw [e] at h
    cases v with
    | str s => exact ⟨s, h⟩
    | _ => cases h

/-- Versions of a parsed advisory were accepted. -/
theorem parsed_versions {L : AdvLib} (hreq : ∀ s r, L.req s = some r → ReqWF r) {s : Str} {a : AdvisoryFile}
    (h : AdvisoryFile.fromStr L s = .ok a) :
    (∀ r ∈ a.versions.patched ++ a.versions.unaffected, ReqWF r) ∧
    Versions.new a.versions.patched a.versions.unaffected = .ok a.versions := by
  obtain ⟨parts, t, m, md, v, -, -, -, -, -, -, -, -, -, hv⟩ := fromStr_inv h
  cases v with
  | table tv =>
    unfold decodeVersions at hv
    dsimp only at hv
    obtain ⟨p, hp, hv⟩ := bindOk hv
    obtain ⟨u, hu, hv⟩ := bindOk hv
    have hone : ∀ s r, ofOption (L.req s) = .ok r → ReqWF r := by
      intro s r hr
      cases e : L.req s with
      | none => rw [e] at hr; cases hr
      | some r' => rw [e] at hr; cases hr; exact hreq s r e
    have hnew : a.versions = { patched := p, unaffected := u } := by
      unfold Versions.new at hv
      obtain ⟨_, _, e⟩ := bindOk hv
      exact (Outcome.ok.inj e).symm
    rw [hnew] at hv ⊢
    refine ⟨fun r hr => ?_, hv⟩
    rcases List.mem_append.mp hr with hr | hr
    · unfold required at hp
      cases e : TomlTable.get tv "patched" with
      | none => rw [e] at hp; cases hp
      | some x => rw [e] at hp; exact asStrings_all hone hp r hr
    · unfold defaulted at hu
      cases e : TomlTable.get tv "unaffected" with
      | none => rw [e] at hu; cases hu; cases hr
      | some x => rw [e] at hu; exact asStrings_all hone hu r hr
  | _ => cases hv

/-- Dates and CVSS vector of a parsed advisory were accepted by their parsers. -/
theorem parsed_fields {L : AdvLib} {s : Str} {a : AdvisoryFile} (h : AdvisoryFile.fromStr L s = .ok a) :
    (∃ x, Id.fromStr x = .ok a.metadata.id) ∧
    (∃ x, DateText.fromStr L.civil x = .ok a.metadata.date) ∧
    (∀ d, a.metadata.withdrawn = some d → ∃ x, DateText.fromStr L.civil x = .ok d) ∧
    (∀ c, a.metadata.cvss = some c → ∃ x, Cvss.Cvss.fromStr x = .ok c) := by
  obtain ⟨parts, t, m, md, v, -, -, -, hd, -, -, he, -⟩ := fromStr_inv h
  obtain ⟨h1, -, -, -, h5, -, -, -, -, -, h11, -, -, -, -, h16, -⟩ := (metadata_decode_iff _ _ _).mp hd
  rw [he]
  exact ⟨required_string h1, required_string h5, defaulted_opt h16, defaulted_opt h11⟩

end Verif.Adv
