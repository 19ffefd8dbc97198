import Verif.Props.Linter
import Mathlib.Data.List.Nodup

/-!
# The linter as a gate (C24): what a clean result says about the parsed advisory
-/

namespace Verif.Props

open Verif.Adv Verif.Lint Verif.Spec

theorem bindOk {α β : Type} {x : Outcome α} {f : α → Outcome β} {b : β} (h : (x >>= f) = .ok b) :
    ∃ a, x = .ok a ∧ f a = .ok b := by
  cases x with
  | ok a => exact ⟨a, rfl, h⟩
  | err => cases h
  | panic => cases h

theorem mem_of_lookup {t : TomlTable} {k : Str} {v : Toml} (h : t.lookup k = some v) : (k, v) ∈ t := by
  induction t with
  | nil => cases h
  | cons e t ih =>
    obtain ⟨k', v'⟩ := e
    rw [List.lookup_cons] at h
    by_cases e : k = k'
    · subst e
      simp only [BEq.rfl] at h
      cases h; simp
    · have : (k == k') = false := by simpa using e
      simp only [this] at h
      exact List.mem_cons_of_mem _ (ih h)

theorem lookup_of_mem {t : TomlTable} {k : Str} {v : Toml} (h : (k, v) ∈ t) : ∃ w, t.lookup k = some w := by
  induction t with
  | nil => cases h
  | cons e t ih =>
    obtain ⟨k', v'⟩ := e
    rw [List.lookup_cons]
    by_cases e : k = k'
    · subst e
      simp only [BEq.rfl]
      exact ⟨_, rfl⟩
    · have : (k == k') = false := by simpa using e
      simp only [this]
      rcases List.mem_cons.mp h with h | h
      · cases h; exact absurd rfl e
      · exact ih h

theorem mem_of_get {t : TomlTable} {k : String} {v : Toml} (h : t.get k = some v) : (k.toList, v) ∈ t :=
  mem_of_lookup h

theorem hasKey_of_get {t : TomlTable} {k : String} {v : Toml} (h : t.get k = some v) : HasKey t k :=
  ⟨v, mem_of_get h⟩

theorem get_of_hasKey {t : TomlTable} {k : String} (h : HasKey t k) : ∃ v, t.get k = some v := by
  obtain ⟨v, h⟩ := h
  exact lookup_of_mem h

theorem required_ok {α : Type} {t : TomlTable} {k : String} {f : Toml → Outcome α} {x : α}
    (h : required t k f = .ok x) : ∃ v, t.get k = some v ∧ f v = .ok x := by
  unfold required at h
  cases hv : t.get k with
  | none => rw [hv] at h; cases h
  | some v => rw [hv] at h; exact ⟨v, rfl, h⟩

theorem defaulted_ok {α : Type} {t : TomlTable} {k : String} {d : α} {f : Toml → Outcome α} {x : α}
    (h : defaulted t k d f = .ok x) :
    (t.get k = none ∧ x = d) ∨ ∃ v, t.get k = some v ∧ f v = .ok x := by
  unfold defaulted at h
  cases hv : t.get k with
  | none => rw [hv] at h; cases h; exact .inl ⟨rfl, rfl⟩
  | some v => rw [hv] at h; exact .inr ⟨v, rfl, h⟩

theorem asString_ok {α : Type} {f : Str → Outcome α} {v : Toml} {x : α} (h : asString f v = .ok x) :
    ∃ s, v = .str s ∧ f s = .ok x := by
  cases v with
  | str s => exact ⟨s, rfl, h⟩
  | _ => cases h

/-- What decoding `[advisory]` tells about the fields the linter looks at. -/
structure MetaFacts (m : TomlTable) (md : FileMetadata) : Prop where
  id : ∃ s, m.get "id" = some (.str s) ∧ Id.fromStr s = .ok md.id
  date : ∃ s, m.get "date" = some (.str s) ∧ md.date = ⟨s⟩
  categories : m.get "categories" = none → md.categories = []
  collection : (m.get "collection" = none ↔ md.collection = none)
  informational : (m.get "informational" = none ↔ md.informational = none)
  url : (m.get "url" = none ↔ md.url = none)
  license : (m.get "license" = none ∧ md.license = .ccZero10) ∨
    ∃ l, m.get "license" = some (.str l) ∧ md.license = License.ofString l

theorem mapSome_ok {α : Type} {x : Outcome α} {y : Option α} (h : Cvss.Outcome.map some x = .ok y) :
    y ≠ none := by
  cases x with
  | ok a => cases h; simp
  | err => cases h
  | panic => cases h

theorem metaFacts {L : AdvLib} {m : TomlTable} {md : FileMetadata} (h : FileMetadata.decode L m = .ok md) :
    MetaFacts m md := by
  unfold FileMetadata.decode at h
  obtain ⟨id, h1, h⟩ := bindOk h
  obtain ⟨package, h2, h⟩ := bindOk h
  obtain ⟨title, h3, h⟩ := bindOk h
  obtain ⟨description, h4, h⟩ := bindOk h
  obtain ⟨date, h5, h⟩ := bindOk h
  obtain ⟨aliases, h6, h⟩ := bindOk h
  obtain ⟨related, h7, h⟩ := bindOk h
  obtain ⟨collection, h8, h⟩ := bindOk h
  obtain ⟨categories, h9, h⟩ := bindOk h
  obtain ⟨keywords, h10, h⟩ := bindOk h
  obtain ⟨cvss, h11, h⟩ := bindOk h
  obtain ⟨informational, h12, h⟩ := bindOk h
  obtain ⟨references, h13, h⟩ := bindOk h
  obtain ⟨source, h14, h⟩ := bindOk h
  obtain ⟨url, h15, h⟩ := bindOk h
  obtain ⟨withdrawn, h16, h⟩ := bindOk h
  obtain ⟨license, h17, h⟩ := bindOk h
  obtain ⟨expectDeleted, h18, h⟩ := bindOk h
  cases h
  refine ⟨?_, ?_, ?_, ?_, ?_, ?_, ?_⟩
  · obtain ⟨v, hv, hf⟩ := required_ok h1
    obtain ⟨s, rfl, hs⟩ := asString_ok hf
    exact ⟨s, hv, hs⟩
  · obtain ⟨v, hv, hf⟩ := required_ok h5
    obtain ⟨s, rfl, hs⟩ := asString_ok hf
    refine ⟨s, hv, ?_⟩
    unfold DateText.fromStr at hs
    split at hs
    · cases hs
    · split at hs
      · cases hs; rfl
      · cases hs
  · intro hn
    rcases defaulted_ok h9 with ⟨_, h⟩ | ⟨v, hv, _⟩
    · exact h
    · rw [hn] at hv; cases hv
  · rcases defaulted_ok h8 with ⟨hn, h⟩ | ⟨v, hv, hf⟩
    · simp [hn, h]
    · obtain ⟨s, rfl, hs⟩ := asString_ok hf
      simp [hv, mapSome_ok hs]
  · rcases defaulted_ok h12 with ⟨hn, h⟩ | ⟨v, hv, hf⟩
    · simp [hn, h]
    · obtain ⟨s, rfl, hs⟩ := asString_ok hf
      cases hs
      simp [hv]
  · rcases defaulted_ok h15 with ⟨hn, h⟩ | ⟨v, hv, hf⟩
    · simp [hn, h]
    · obtain ⟨s, rfl, hs⟩ := asString_ok hf
      simp [hv, mapSome_ok hs]
  · rcases defaulted_ok h17 with ⟨hn, h⟩ | ⟨v, hv, hf⟩
    · exact .inl ⟨hn, h⟩
    · obtain ⟨s, rfl, hs⟩ := asString_ok hf
      cases hs
      exact .inr ⟨s, hv, rfl⟩

/-- What decoding `[affected]` tells. -/
structure AffFacts (m : TomlTable) (af : Affected) : Prop where
  arch : m.get "arch" = none → af.arch = []
  os : m.get "os" = none → af.os = []
  functions : m.get "functions" = none → af.functions = []

theorem affFacts {L : AdvLib} {v : Toml} {af : Affected} (h : decodeAffected L v = .ok af) :
    ∃ m, v = .table m ∧ AffFacts m af := by
  cases v with
  | table m =>
    refine ⟨m, rfl, ?_⟩
    unfold decodeAffected at h
    obtain ⟨arch, h1, h⟩ := bindOk h
    obtain ⟨os, h2, h⟩ := bindOk h
    obtain ⟨functions, h3, h⟩ := bindOk h
    cases h
    refine ⟨?_, ?_, ?_⟩ <;> intro hn
    · rcases defaulted_ok h1 with ⟨_, h⟩ | ⟨v, hv, _⟩
      · exact h
      · rw [hn] at hv; cases hv
    · rcases defaulted_ok h2 with ⟨_, h⟩ | ⟨v, hv, _⟩
      · exact h
      · rw [hn] at hv; cases hv
    · rcases defaulted_ok h3 with ⟨_, h⟩ | ⟨v, hv, _⟩
      · exact h
      · rw [hn] at hv; cases hv
  | _ => cases h

/-- What decoding the document tells. -/
structure DocFacts (t : TomlTable) (a : AdvisoryFile) : Prop where
  metadata : ∃ m, t.get "advisory" = some (.table m) ∧ MetaFacts m a.metadata
  affected : (t.get "affected" = none ∧ a.affected = none) ∨
    ∃ m af, t.get "affected" = some (.table m) ∧ a.affected = some af ∧ AffFacts m af

theorem docFacts {L : AdvLib} {t : TomlTable} {a : AdvisoryFile} (h : AdvisoryFile.decode L t = .ok a) :
    DocFacts t a := by
  unfold AdvisoryFile.decode at h
  obtain ⟨metadata, h1, h⟩ := bindOk h
  obtain ⟨affected, h2, h⟩ := bindOk h
  obtain ⟨versions, h3, h⟩ := bindOk h
  cases h
  constructor
  · obtain ⟨v, hv, hf⟩ := required_ok h1
    cases v with
    | table m => exact ⟨m, hv, metaFacts hf⟩
    | _ => cases hf
  · rcases defaulted_ok h2 with ⟨hn, h⟩ | ⟨v, hv, hf⟩
    · exact .inl ⟨hn, h⟩
    · cases hd : decodeAffected L v with
      | err => rw [hd] at hf; cases hf
      | panic => rw [hd] at hf; cases hf
      | ok af =>
        rw [hd] at hf
        cases hf
        obtain ⟨m, rfl, hm⟩ := affFacts hd
        exact .inr ⟨m, af, hv, rfl, hm⟩

/-- What parsing an advisory does, step by step. -/
theorem fromStr_ok {L : AdvLib} {s : Str} {a : AdvisoryFile} (h : AdvisoryFile.fromStr L s = .ok a) :
    ∃ parts t a0, Parts.parse s = .ok parts ∧ L.toml (withHeader parts.frontMatter) = some t ∧
      AdvisoryFile.decode L t = .ok a0 ∧ a0.metadata.title = [] ∧ a0.metadata.description = [] ∧
      a = { a0 with metadata := { a0.metadata with title := parts.title, description := parts.description } } := by
  unfold AdvisoryFile.fromStr at h
  obtain ⟨parts, h1, h⟩ := bindOk h
  obtain ⟨t, h2, h⟩ := bindOk h
  obtain ⟨a0, h3, h⟩ := bindOk h
  split at h
  · cases h
  split at h
  · cases h
  rename_i h4 h5
  cases h
  have h2' : L.toml (withHeader parts.frontMatter) = some t := by
    cases ht : L.toml (withHeader parts.frontMatter) with
    | none => rw [ht] at h2; cases h2
    | some t' => rw [ht] at h2; cases h2; rfl
  exact ⟨parts, t, a0, h1, h2', h3, by simpa using h4, by simpa using h5, rfl⟩

theorem withHeader_header {fm rest : Str} (h : fm = "[advisory]".toList ++ rest) : withHeader fm = fm := by
  unfold withHeader advisoryHeader
  rw [if_pos ((isPrefixOf_iff _ _).mpr ⟨rest, h⟩)]

theorem docFacts_fromStr {L : AdvLib} {s : Str} {a : AdvisoryFile} {parts : Parts} {t : TomlTable}
    (h : AdvisoryFile.fromStr L s = .ok a) (hp : Parts.parse s = .ok parts)
    (ht : L.toml (withHeader parts.frontMatter) = some t) : DocFacts t a := by
  obtain ⟨parts', t', a0, h1, h2, h3, _, _, rfl⟩ := fromStr_ok h
  rw [hp] at h1; cases h1
  rw [ht] at h2; cases h2
  have := docFacts h3
  obtain ⟨⟨m, hm, mf⟩, haf⟩ := this
  exact ⟨⟨m, hm, mf.1, mf.2, mf.3, mf.4, mf.5, mf.6, mf.7⟩, haf⟩

/-- **C24, the gate.**  If a document whose front matter starts with `[advisory]` lints without findings, the
advisory that the parser returns has: an ID of a known kind, whose placeholder status agrees with the draft
status of the file and whose year (unless it is a CVE ID) is that of the date; no category, informational
kind or license outside the known ones; no explicit collection; function paths that start with the crate's
name, known architectures and no empty OS name; and the document has only known keys, an `https` URL, and
no bare user mention. -/
theorem C24_gate (L : AdvLib) (s : Str) (draft : Option Bool) (a : AdvisoryFile) (parts : Parts) (rest : Str)
    (h : lintString L s draft = .ok (a, [])) (hp : Parts.parse s = .ok parts)
    (hh : parts.frontMatter = "[advisory]".toList ++ rest) :
    (∀ d, draft = some d → (d = true ↔ a.metadata.id.string = "RUSTSEC-0000-0000".toList)) ∧
    a.metadata.id.kind ≠ .other ∧
    (∀ y1 y2, a.metadata.id.kind ≠ .cve → a.metadata.id.year = some y1 → a.metadata.date.year = .ok y2 →
      y1 = y2) ∧
    (∀ x, Category.other x ∉ a.metadata.categories) ∧
    a.metadata.collection = none ∧
    (∀ x, a.metadata.informational ≠ some (.other x)) ∧
    (∀ x, a.metadata.license ≠ .other x) ∧
    (∀ af, a.affected = some af →
      (∀ f ∈ af.functions,
        f.1.head? = some (a.metadata.package.map fun c => if c = '-' then '_' else c)) ∧
      (∀ x ∈ af.arch, ∃ A : Plat.Arch, A.asStr = x) ∧ [] ∉ af.os) ∧
    (∀ n, ¬ Mention parts.markdown n) ∧
    ∃ t m, L.toml parts.frontMatter = some t ∧ ("advisory".toList, .table m) ∈ t ∧
      (∀ k v, (k, v) ∈ t → k = "advisory".toList ∨ k = "versions".toList ∨ k = "affected".toList) ∧
      (∀ k v, (k, v) ∈ m → ∃ n ∈ metadataKeys, k = n.toList) ∧
      (∀ u, ("url".toList, .str u) ∈ m → ∃ r, u = "https://".toList ++ r) ∧
      (HasKey m "yanked" → a.metadata.withdrawn ≠ none) ∧
      (∀ vm, ("versions".toList, .table vm) ∈ t → ∀ k v, (k, v) ∈ vm →
        k = "patched".toList ∨ k = "unaffected".toList) ∧
      (∀ am, ("affected".toList, .table am) ∈ t → ∀ k v, (k, v) ∈ am →
        k = "functions".toList ∨ k = "arch".toList ∨ k = "os".toList) := by
  obtain ⟨parts', t, hp', ht, hfs, _, hclean⟩ := C24_findings_exact L s draft a [] h
  rw [hp] at hp'; cases hp'
  have no := hclean.mp rfl
  have df := docFacts_fromStr hfs hp (by rw [withHeader_header hh]; exact ht)
  obtain ⟨⟨m, hm, mf⟩, haf⟩ := df
  have hmt := mem_of_get hm
  have nom : ∀ f, ¬ MetaProblem a draft m f := fun f hf => no f (.metadata m f hmt hf)
  obtain ⟨ids, hid, _⟩ := mf.id
  obtain ⟨ds, hdate, _⟩ := mf.date
  have hk : a.metadata.id.kind ≠ .other := fun e => nom _ (.otherId (hasKey_of_get hid) e)
  refine ⟨?_, hk, ?_, ?_, ?_, ?_, ?_, ?_, fun n hn => no _ (.mention n hn), t, m, ht, hmt, ?_, ?_, ?_, ?_, ?_, ?_⟩
  · intro d hd
    by_contra hne
    apply nom _ (.draft d (hasKey_of_get hid) hd _)
    constructor
    · intro hd1 he; exact hne ⟨fun _ => he, fun _ => hd1⟩
    · intro he
      by_contra hd1
      exact hne ⟨fun h => absurd h hd1, fun h => absurd h he⟩
  · intro y1 y2 hc h1 h2
    by_contra hne
    exact nom _ (.year y1 y2 (hasKey_of_get hid) (hasKey_of_get hdate) hk hc h1 h2 hne)
  · intro x hx
    cases hg : TomlTable.get m "categories" with
    | none => rw [mf.categories hg] at hx; cases hx
    | some v => exact nom _ (.category x (hasKey_of_get hg) hx)
  · rw [← mf.collection]
    cases hg : TomlTable.get m "collection" with
    | none => rfl
    | some v => exact absurd (.collection (hasKey_of_get hg)) (nom _)
  · intro x hx
    cases hg : TomlTable.get m "informational" with
    | none => rw [mf.informational.mp hg] at hx; cases hx
    | some v => exact nom _ (.informational x (hasKey_of_get hg) hx)
  · intro x hx
    rcases mf.license with ⟨_, e⟩ | ⟨l, hl, e⟩
    · rw [e] at hx; cases hx
    · rw [e] at hx
      obtain ⟨h1, h2⟩ := (license_other l).mp ⟨x, hx⟩
      exact nom _ (.license l (mem_of_get hl) h1 h2)
  · intro af ha
    rcases haf with ⟨_, e⟩ | ⟨am, af', hg, e, ff⟩
    · rw [e] at ha; cases ha
    rw [e] at ha; cases ha
    have noa : ∀ f, ¬ AffectedProblem a am f := fun f hf => no f (.affected am f (mem_of_get hg) hf)
    refine ⟨?_, ?_, ?_⟩
    · intro f hf
      by_contra hne
      cases hk : TomlTable.get am "functions" with
      | none => rw [ff.functions hk] at hf; cases hf
      | some v => exact noa _ (.function af f.1 f.2 (hasKey_of_get hk) e hf hne)
    · intro x hx
      by_contra hne
      push Not at hne
      cases hk : TomlTable.get am "arch" with
      | none => rw [ff.arch hk] at hx; cases hx
      | some v => exact noa _ (.arch af x (hasKey_of_get hk) e hx hne)
    · intro hx
      cases hk : TomlTable.get am "os" with
      | none => rw [ff.os hk] at hx; cases hx
      | some v => exact noa _ (.os af (hasKey_of_get hk) e hx)
  · intro k v hkv
    by_contra hne
    push Not at hne
    exact no _ (.key k v hkv hne.1 hne.2.1 hne.2.2)
  · intro k v hkv
    by_contra hne
    push Not at hne
    by_cases hc : k = "collection".toList
    · subst hc; exact nom _ (.collection ⟨v, hkv⟩)
    · exact nom _ (.key k v hkv hc hne)
  · intro u hu
    by_contra hne
    push Not at hne
    exact nom _ (.url u hu hne)
  · intro hy hw
    exact nom _ (.yanked hy hw)
  · intro vm hvm k v hkv
    by_contra hne
    push Not at hne
    exact no _ (.versions vm k v hvm hkv hne.1 hne.2)
  · intro am ham k v hkv
    by_contra hne
    push Not at hne
    exact no _ (.affected am _ ham (.key k v hkv hne.1 hne.2.1 hne.2.2))

/-! ### When the linter returns -/

theorem year_ne_err (d : DateText) : d.year ≠ .err := by
  unfold DateText.year DateText.component
  split
  · simp
  · split <;> simp

theorem lintMetaKey_total {a : AdvisoryFile} {draft : Option Bool} (k : Str) (v : Toml)
    (hi : k = "informational".toList → a.metadata.informational ≠ none)
    (hy : k = "date".toList → a.metadata.date.year ≠ .panic) (year : Option Nat) :
    ∃ r, lintMetaKey a draft year k v = .ok r := by
  unfold lintMetaKey
  split
  · exact ⟨_, rfl⟩
  split
  · exact ⟨_, rfl⟩
  split
  · exact ⟨_, rfl⟩
  split
  · rename_i hk
    split
    · rename_i e; exact absurd e (hi hk)
    · exact ⟨_, rfl⟩
    · exact ⟨_, rfl⟩
  split
  · split <;> exact ⟨_, rfl⟩
  split
  · rename_i hk
    unfold lintDate
    have := year_ne_err a.metadata.date
    split
    · split <;> exact ⟨_, rfl⟩
    · rename_i e; exact absurd e this
    · rename_i e; exact absurd e (hy hk)
  split
  · exact ⟨_, rfl⟩
  split
  · split
    · split <;> exact ⟨_, rfl⟩
    · exact ⟨_, rfl⟩
  split <;> exact ⟨_, rfl⟩

theorem lintMetaKeys_total {a : AdvisoryFile} {draft : Option Bool} (m : TomlTable)
    (hi : HasKey m "informational" → a.metadata.informational ≠ none)
    (hy : HasKey m "date" → a.metadata.date.year ≠ .panic) :
    ∀ year, ∃ fs, lintMetaKeys a draft year m = .ok fs := by
  induction m with
  | nil => intro year; exact ⟨[], rfl⟩
  | cons kv m ih =>
    obtain ⟨k, v⟩ := kv
    intro year
    obtain ⟨⟨y', fs⟩, hr⟩ := lintMetaKey_total (a := a) (draft := draft) k v
      (fun e => hi ((hasKey_cons _ _ _ _).mpr (.inl e))) (fun e => hy ((hasKey_cons _ _ _ _).mpr (.inl e))) year
    obtain ⟨gs, hg⟩ := ih (fun h => hi ((hasKey_cons _ _ _ _).mpr (.inr h)))
      (fun h => hy ((hasKey_cons _ _ _ _).mpr (.inr h))) y'
    exact ⟨fs ++ gs, by rw [lintMetaKeys, hr]; simp only; rw [hg]⟩

/-- **C24.**  The linter returns for every document with the header that the parser accepts and whose date
the accessors can read; so (`C24_findings_exact`) such a document lints clean if and only if it has none of
the listed problems. -/
theorem C24_returns (L : AdvLib) (s : Str) (draft : Option Bool) (a : AdvisoryFile) (parts : Parts)
    (rest : Str) (h : AdvisoryFile.fromStr L s = .ok a) (hp : Parts.parse s = .ok parts)
    (hd : DistinctKeys L.toml)
    (hh : parts.frontMatter = "[advisory]".toList ++ rest) (hy : a.metadata.date.year ≠ .panic) :
    ∃ fs, lintString L s draft = .ok (a, fs) := by
  obtain ⟨parts', t, a0, hp', ht, hrest⟩ := fromStr_ok h
  rw [hp] at hp'; cases hp'
  have df := docFacts_fromStr h hp ht
  rw [withHeader_header hh] at ht
  have key : ∃ gs, lintAdvisory a draft t = .ok gs := by
    unfold lintAdvisory
    rw [concatMap_ok]
    rintro ⟨k, v⟩ hkv
    by_cases h1 : k = "advisory".toList
    · subst h1
      rw [lintTopKey_advisory]
      cases v with
      | table m =>
        obtain ⟨m0, hm0, mf⟩ := df.metadata
        have e : m = m0 := by
          have := List.inj_on_of_nodup_map (hd _ _ ht) hkv (mem_of_get hm0) rfl
          cases this; rfl
        subst e
        refine lintMetaKeys_total m (fun hk hn => ?_) (fun _ => hy) none
        obtain ⟨w, hw⟩ := get_of_hasKey hk
        rw [mf.informational.mpr hn] at hw; cases hw
      | _ => exact ⟨_, rfl⟩
    by_cases h2 : k = "versions".toList
    · subst h2; rw [lintTopKey_versions]; exact ⟨_, rfl⟩
    by_cases h3 : k = "affected".toList
    · subst h3
      rw [lintTopKey_affected]
      have hne : a.affected ≠ none := by
        rcases df.affected with ⟨e, _⟩ | ⟨_, af, _, e, _⟩
        · obtain ⟨w, hw⟩ := lookup_of_mem hkv
          rw [show t.get "affected" = some w from hw] at e; cases e
        · rw [e]; simp
      cases v with
      | table m =>
        unfold lintAffected
        rw [concatMap_ok]
        intro x _
        unfold lintAffectedKey
        cases haf : a.affected with
        | none => exact absurd haf hne
        | some af => simp only; split; exact ⟨_, rfl⟩; split; exact ⟨_, rfl⟩; split <;> exact ⟨_, rfl⟩
      | _ => exact ⟨_, rfl⟩
    · rw [lintTopKey_else _ _ _ _ h1 h2 h3]; exact ⟨_, rfl⟩
  obtain ⟨gs, hg⟩ := key
  refine ⟨lintMentions parts.markdown ++ gs, ?_⟩
  unfold lintString
  rw [h]; simp only [Outcome.bind_ok]
  rw [hp]; simp only [Outcome.bind_ok]
  rw [ht]; simp only [ofOption, Outcome.bind_ok]
  rw [hg]; rfl

/-! ### Front matter without the header -/

/-- **Finding (C24).**  The linter reads the front matter without adding the `[advisory]` header that the
parser adds, so for a document without it every metadata key, such as `id`, is reported as unknown: no such
document lints clean. -/
theorem C24_headerless_never_clean (L : AdvLib) (s : Str) (draft : Option Bool) (a : AdvisoryFile)
    (fs : List Finding) (parts : Parts) (t : TomlTable) (h : lintString L s draft = .ok (a, fs))
    (hp : Parts.parse s = .ok parts) (ht : L.toml parts.frontMatter = some t) (k : String)
    (hk : k ∈ metadataKeys) (hkt : HasKey t k) : .unknownKey none k.toList ∈ fs := by
  obtain ⟨parts', t', hp', ht', _, hex, _⟩ := C24_findings_exact L s draft a fs h
  rw [hp] at hp'; cases hp'
  rw [ht] at ht'; cases ht'
  obtain ⟨v, hv⟩ := hkt
  rw [hex]
  refine .key k.toList v hv ?_ ?_ ?_ <;> intro e <;>
  · have e := String.toList_injective e
    subst e
    exact absurd hk (by decide)

theorem concatMap_panic {α : Type} {g : α → Outcome (List Finding)} (l : List α) (he : ∀ x ∈ l, g x ≠ .err)
    (hp : ∃ x ∈ l, g x = .panic) : concatMap g l = .panic := by
  induction l with
  | nil => obtain ⟨x, h, _⟩ := hp; cases h
  | cons x xs ih =>
    rw [concatMap]
    cases hx : g x with
    | err => exact absurd hx (he x (by simp))
    | panic => rfl
    | ok gs =>
      simp only
      rw [ih (fun y hy => he y (by simp [hy]))]
      obtain ⟨y, hy, hyp⟩ := hp
      rcases List.mem_cons.mp hy with rfl | hy
      · rw [hx] at hyp; cases hyp
      · exact ⟨y, hy, hyp⟩

theorem concatMap_ne_err {α : Type} {g : α → Outcome (List Finding)} (l : List α) (he : ∀ x ∈ l, g x ≠ .err) :
    concatMap g l ≠ .err := by
  induction l with
  | nil => simp [concatMap]
  | cons x xs ih =>
    rw [concatMap]
    cases hx : g x with
    | err => exact absurd hx (he x (by simp))
    | panic => simp
    | ok gs =>
      simp only
      cases hr : concatMap g xs with
      | err => exact absurd hr (ih fun y hy => he y (by simp [hy]))
      | ok _ => simp
      | panic => simp

theorem lintMetaKey_ne_err (a : AdvisoryFile) (draft : Option Bool) (year : Option Nat) (k : Str) (v : Toml) :
    lintMetaKey a draft year k v ≠ .err := by
  unfold lintMetaKey
  split
  · simp
  split
  · simp
  split
  · simp
  split
  · split <;> simp
  split
  · split <;> simp
  split
  · unfold lintDate
    have := year_ne_err a.metadata.date
    split
    · split <;> simp
    · rename_i e; exact absurd e this
    · simp
  split
  · simp
  split
  · split
    · split <;> simp
    · simp
  split <;> simp

theorem lintMetaKeys_ne_err (a : AdvisoryFile) (draft : Option Bool) (m : TomlTable) :
    ∀ year, lintMetaKeys a draft year m ≠ .err := by
  induction m with
  | nil => intro year; simp [lintMetaKeys]
  | cons kv m ih =>
    obtain ⟨k, v⟩ := kv
    intro year
    rw [lintMetaKeys]
    cases h : lintMetaKey a draft year k v with
    | err => exact absurd h (lintMetaKey_ne_err _ _ _ _ _)
    | panic => simp
    | ok r =>
      obtain ⟨y, fs⟩ := r
      simp only
      cases h2 : lintMetaKeys a draft y m with
      | err => exact absurd h2 (ih y)
      | panic => simp
      | ok _ => simp

theorem lintAffectedKey_ne_err (a : AdvisoryFile) (k : Str) : lintAffectedKey a k ≠ .err := by
  unfold lintAffectedKey
  split
  · cases a.affected <;> simp
  split
  · cases a.affected <;> simp
  split
  · cases a.affected <;> simp
  · simp

theorem lintTopKey_ne_err (a : AdvisoryFile) (draft : Option Bool) (kv : Str × Toml) :
    lintTopKey a draft kv ≠ .err := by
  unfold lintTopKey
  split
  · cases kv.2 with
    | table m => exact lintMetaKeys_ne_err a draft m none
    | _ => simp [lintMetadata]
  split
  · simp
  split
  · cases kv.2 with
    | table m => exact concatMap_ne_err _ fun x _ => lintAffectedKey_ne_err a x.1
    | _ => simp [lintAffected]
  · simp

/-- **Finding (C24).**  In a document without the header, a key `affected` written as an inline table (before
the first section) is part of `[advisory]` for the parser, which ignores it, but is the `[affected]` section
for the linter, which then unwraps the advisory's missing `affected` and panics. -/
theorem C24_headerless_panics (L : AdvLib) (s : Str) (draft : Option Bool) (a : AdvisoryFile)
    (parts : Parts) (t am : TomlTable) (h : AdvisoryFile.fromStr L s = .ok a)
    (hp : Parts.parse s = .ok parts) (ht : L.toml parts.frontMatter = some t) (haf : a.affected = none)
    (hkv : ("affected".toList, .table am) ∈ t)
    (hk : HasKey am "functions" ∨ HasKey am "arch" ∨ HasKey am "os") :
    lintString L s draft = .panic := by
  have key : lintAdvisory a draft t = .panic := by
    unfold lintAdvisory
    refine concatMap_panic t (fun x _ => lintTopKey_ne_err a draft x) ⟨_, hkv, ?_⟩
    rw [lintTopKey_affected]
    unfold lintAffected
    refine concatMap_panic am (fun x _ => lintAffectedKey_ne_err a x.1) ?_
    rcases hk with ⟨v, hv⟩ | ⟨v, hv⟩ | ⟨v, hv⟩ <;> refine ⟨_, hv, ?_⟩
    · show lintAffectedKey a "functions".toList = .panic
      refine (if_pos rfl).trans ?_
      rw [haf]
    · show lintAffectedKey a "arch".toList = .panic
      refine (if_neg (show ¬ "arch".toList = "functions".toList by decide)).trans ((if_pos rfl).trans ?_)
      rw [haf]
    · show lintAffectedKey a "os".toList = .panic
      refine (if_neg (show ¬ "os".toList = "functions".toList by decide)).trans
        ((if_neg (show ¬ "os".toList = "arch".toList by decide)).trans ((if_pos rfl).trans ?_))
      rw [haf]
  unfold lintString
  rw [h]; simp only [Outcome.bind_ok]
  rw [hp]; simp only [Outcome.bind_ok]
  rw [ht]; simp only [ofOption, Outcome.bind_ok]
  rw [key]; rfl

/-- The linter panics on exactly these documents with the header: those on which the parser panics, and
accepted ones whose date has no readable year. -/
theorem C24_panics_iff (L : AdvLib) (s : Str) (draft : Option Bool) (parts : Parts) (rest : Str)
    (hd : DistinctKeys L.toml) (hp : Parts.parse s = .ok parts)
    (hh : parts.frontMatter = "[advisory]".toList ++ rest) :
    lintString L s draft = .panic ↔
      AdvisoryFile.fromStr L s = .panic ∨
      ∃ a, AdvisoryFile.fromStr L s = .ok a ∧ a.metadata.date.year = .panic := by
  cases h : AdvisoryFile.fromStr L s with
  | err => simp [lintString, h, Outcome.bind_err]
  | panic => simp [lintString, h]
  | ok a =>
    simp only [reduceCtorEq, Outcome.ok.injEq, exists_eq_left', false_or]
    by_cases hy : a.metadata.date.year = .panic
    · simp only [hy, iff_true]
      obtain ⟨parts', t, a0, hp', ht, _⟩ := fromStr_ok h
      rw [hp] at hp'; cases hp'
      have df := docFacts_fromStr h hp ht
      rw [withHeader_header hh] at ht
      obtain ⟨m, hm, mf⟩ := df.metadata
      obtain ⟨ds, hds, _⟩ := mf.date
      have key : lintAdvisory a draft t = .panic := by
        unfold lintAdvisory
        refine concatMap_panic t (fun x _ => lintTopKey_ne_err a draft x) ⟨_, mem_of_get hm, ?_⟩
        rw [lintTopKey_advisory]
        have hkey : HasKey m "date" := hasKey_of_get hds
        show lintMetaKeys a draft none m = .panic
        generalize (none : Option Nat) = year
        clear hm mf hds df
        induction m generalizing year with
        | nil => obtain ⟨v, hv⟩ := hkey; cases hv
        | cons kv m ih =>
          obtain ⟨k, v⟩ := kv
          rw [lintMetaKeys]
          cases hr : lintMetaKey a draft year k v with
          | err => exact absurd hr (lintMetaKey_ne_err _ _ _ _ _)
          | panic => rfl
          | ok r =>
            obtain ⟨y, fs⟩ := r
            simp only
            rcases (hasKey_cons k v m "date").mp hkey with rfl | hkey
            · rw [lintMetaKey_date] at hr
              unfold lintDate at hr
              rw [hy] at hr; cases hr
            · rw [ih hkey y]
      unfold lintString
      rw [h]; simp only [Outcome.bind_ok]
      rw [hp]; simp only [Outcome.bind_ok]
      rw [ht]; simp only [ofOption, Outcome.bind_ok]
      rw [key]; rfl
    · obtain ⟨fs, hfs⟩ := C24_returns L s draft a parts rest h hp hd hh hy
      simp [hfs, hy]

end Verif.Props
