import Verif.Spec.SourceApi
import Verif.Lemmas.LockMeaning
import Verif.Props.SourceCmp

/-!
# C99: what a source identifier answers
-/

namespace Verif.Props

open Verif Verif.Lock Verif.Semver Verif.Spec

private theorem tail_of {a b x y : Str} (h : a ++ x = b ++ y) (hl : a.length = b.length) : x = y :=
  (List.append_inj h hl).2

private theorem pref {p q x : Str} (h : p <+: q ++ x) (n : Nat) (hp : n ≤ p.length) (hq : n ≤ q.length) : p.take n = q.take n := by
  obtain ⟨y, hy⟩ := h
  have := congrArg (List.take n) hy
  rwa [List.take_append_of_le_length hp, List.take_append_of_le_length hq] at this

/-- Each text has the prefix of one kind. -/
private theorem kinds {p q rest : Str} (hp : p ∈ ["git+".toList, "registry+".toList, "sparse+".toList, "path+".toList])
    (hq : q ∈ ["git+".toList, "registry+".toList, "sparse+".toList, "path+".toList]) : p <+: q ++ rest ↔ p = q := by
  constructor
  · intro h
    have := pref h 2
    simp only [List.mem_cons, List.not_mem_nil, or_false] at hp hq
    rcases hp with rfl | rfl | rfl | rfl <;> rcases hq with rfl | rfl | rfl | rfl <;>
      first
        | rfl
        | exact absurd (this (by decide) (by decide)) (by decide)
  · rintro rfl; exact List.prefix_append _ _

private theorem mg : "git+".toList ∈ ["git+".toList, "registry+".toList, "sparse+".toList, "path+".toList] := by decide
private theorem mr : "registry+".toList ∈ ["git+".toList, "registry+".toList, "sparse+".toList, "path+".toList] := by decide
private theorem ms : "sparse+".toList ∈ ["git+".toList, "registry+".toList, "sparse+".toList, "path+".toList] := by decide
private theorem mp' : "path+".toList ∈ ["git+".toList, "registry+".toList, "sparse+".toList, "path+".toList] := by decide

/-- **C99.**  What a source read from a text answers is what the text says: its kind is the part before the first `+`. -/
theorem C99_kinds (U : UrlLib) (t : Str) (s : SourceId) (h : SourceId.fromUrl U t = .ok s) :
    (s.isPath = true ↔ "path+".toList <+: t) ∧
    (s.isGit = true ↔ "git+".toList <+: t) ∧
    (s.isRemoteRegistry = true ↔ "registry+".toList <+: t ∨ "sparse+".toList <+: t) ∧
    (s.isRegistry = true ↔ "registry+".toList <+: t ∨ "sparse+".toList <+: t) := by
  rw [source_iff] at h
  cases h with
  | git hu hr =>
    rw [kinds mp' mg, kinds mg mg, kinds mr mg, kinds ms mg]
    refine ⟨?_, ?_, ?_, ?_⟩ <;> simp [SourceId.isPath, SourceId.isGit, SourceId.isRemoteRegistry, SourceId.isRegistry]
  | registry hu =>
    rw [kinds mp' mr, kinds mg mr, kinds mr mr, kinds ms mr]
    refine ⟨?_, ?_, ?_, ?_⟩ <;> simp [SourceId.isPath, SourceId.isGit, SourceId.isRemoteRegistry, SourceId.isRegistry]
  | sparse hu =>
    rw [kinds mp' ms, kinds mg ms, kinds mr ms, kinds ms ms]
    refine ⟨?_, ?_, ?_, ?_⟩ <;> simp [SourceId.isPath, SourceId.isGit, SourceId.isRemoteRegistry, SourceId.isRegistry]
  | path hu =>
    rw [kinds mp' mp', kinds mg mp', kinds mr mp', kinds ms mp']
    refine ⟨?_, ?_, ?_, ?_⟩ <;> simp [SourceId.isPath, SourceId.isGit, SourceId.isRemoteRegistry, SourceId.isRegistry]

/-- **C99.**  The revision that a source read from a text has: of a git repository, the fragment of the URL; of a registry,
`locked`; of a path, none.  Only a git repository has a reference: the one that the query of the URL names. -/
theorem C99_revision (U : UrlLib) (t : Str) (s : SourceId) (h : SourceId.fromUrl U t = .ok s) :
    (∀ rest u, t = "git+".toList ++ rest → Url.parse U rest = some u →
      s.precise = u.fragment ∧ ∃ r, s.gitReference = some r ∧ Refers u.queryPairs r) ∧
    (s.isRegistry = true → s.precise = some "locked".toList) ∧
    (s.isPath = true → s.precise = none) ∧
    (¬ "git+".toList <+: t → s.gitReference = none) := by
  have hk := (C99_kinds U t s h).2.1
  rw [source_iff] at h
  cases h with
  | git hu hr =>
    refine ⟨fun rest' u' ht hu' => ?_, fun hs => (by cases hs), fun hs => (by cases hs), fun hn => ?_⟩
    · have := List.append_cancel_left ht
      subst this
      rw [hu] at hu'
      cases hu'
      exact ⟨rfl, _, rfl, hr⟩
    · exact absurd (List.prefix_append _ _) hn
  | registry hu =>
    refine ⟨fun rest' u' ht _ => ?_, fun _ => rfl, fun hs => (by cases hs), fun _ => rfl⟩
    have := hk.2 (ht ▸ List.prefix_append _ _)
    cases this
  | sparse hu =>
    refine ⟨fun rest' u' ht _ => ?_, fun _ => rfl, fun hs => (by cases hs), fun _ => rfl⟩
    have := hk.2 (ht ▸ List.prefix_append _ _)
    cases this
  | path hu =>
    refine ⟨fun rest' u' ht _ => ?_, fun hs => (by cases hs), fun _ => rfl, fun _ => rfl⟩
    have := hk.2 (ht ▸ List.prefix_append _ _)
    cases this

/-- **C99.**  A source read from a text is the default registry exactly if the text names the git index or the sparse index
of crates.io. -/
theorem C99_default (U : UrlLib) (t : Str) (s : SourceId) (h : SourceId.fromUrl U t = .ok s) :
    s.isDefaultRegistry = true ↔ NamesCratesIo U t := by
  have hd : cratesIoSparseIndex.drop 7 = "https://index.crates.io/".toList := by decide
  have hu : ∀ rest u, t = "registry+".toList ++ rest ∨ t = "sparse+".toList ++ rest → Url.parse U rest = some u →
      s.url = u ∧ (t = "registry+".toList ++ rest → s.kind = .registry) ∧ (t = "sparse+".toList ++ rest → s.kind = .sparseRegistry) := by
    intro rest u ht hp
    rw [source_iff] at h
    have e : ∀ {p q x : Str}, p ∈ ["git+".toList, "registry+".toList, "sparse+".toList, "path+".toList] →
        q ∈ ["git+".toList, "registry+".toList, "sparse+".toList, "path+".toList] → p ++ x = q ++ rest → p = q ∧ x = rest := by
      intro p q x hp hq he
      have hpq := (kinds hp hq).1 (he ▸ List.prefix_append p x)
      subst hpq
      exact ⟨rfl, List.append_cancel_left he⟩
    cases h with
    | git hu hr => rcases ht with ht | ht
                   · exact absurd (e mg mr ht).1 (by decide)
                   · exact absurd (e mg ms ht).1 (by decide)
    | registry hu =>
      rcases ht with ht | ht
      · obtain ⟨-, rfl⟩ := e mr mr ht
        rw [hu] at hp; cases hp
        exact ⟨rfl, fun _ => rfl, fun h => absurd (e mr ms h).1 (by decide)⟩
      · exact absurd (e mr ms ht).1 (by decide)
    | sparse hu =>
      rcases ht with ht | ht
      · exact absurd (e ms mr ht).1 (by decide)
      · obtain ⟨-, rfl⟩ := e ms ms ht
        rw [hu] at hp; cases hp
        exact ⟨rfl, fun h => absurd (e ms mr h).1 (by decide), fun _ => rfl⟩
    | path hu => rcases ht with ht | ht
                 · exact absurd (e mp' mr ht).1 (by decide)
                 · exact absurd (e mp' ms ht).1 (by decide)
  unfold SourceId.isDefaultRegistry
  rw [Bool.or_eq_true, decide_eq_true_eq, decide_eq_true_eq, hd]
  constructor
  · intro hs
    rw [source_iff] at h
    cases h with
    | git _ _ => rcases hs with ⟨hs, _⟩ | ⟨hs, _⟩ <;> cases hs
    | @registry rest u hp =>
      rcases hs with ⟨_, hs⟩ | ⟨hs, _⟩
      · exact ⟨rest, u, hp, .inl ⟨rfl, hs⟩⟩
      · cases hs
    | @sparse rest u hp =>
      rcases hs with ⟨hs, _⟩ | ⟨_, hs⟩
      · cases hs
      · exact ⟨rest, u, hp, .inr ⟨rfl, hs⟩⟩
    | path _ => rcases hs with ⟨hs, _⟩ | ⟨hs, _⟩ <;> cases hs
  · rintro ⟨rest, u, hp, ⟨ht, hx⟩ | ⟨ht, hx⟩⟩
    · obtain ⟨e, k, -⟩ := hu rest u (.inl ht) hp
      exact .inl ⟨k ht, e ▸ hx⟩
    · obtain ⟨e, -, k⟩ := hu rest u (.inr ht) hp
      exact .inr ⟨k ht, e ▸ hx⟩

/-- **C99.**  What the constructors give: the asked kind and URL, without a revision; from a path, only if it is the path of
a file URL. -/
theorem C99_constructors (fromFile : Str → Option Url) (u : Url) (r : GitReference) (p : Str) (s : SourceId) :
    (SourceId.forGit u r = .ok s ↔ s = { url := u, kind := .git r }) ∧
    (SourceId.forRegistry u = .ok s ↔ s = { url := u, kind := .registry }) ∧
    (SourceId.forPath fromFile p = .ok s ↔ ∃ v, fromFile p = some v ∧ s = { url := v, kind := .path }) ∧
    (SourceId.forLocalRegistry fromFile p = .ok s ↔ ∃ v, fromFile p = some v ∧ s = { url := v, kind := .localRegistry }) ∧
    (SourceId.forDirectory fromFile p = .ok s ↔ ∃ v, fromFile p = some v ∧ s = { url := v, kind := .directory }) := by
  have hp : ∀ k, (do let v ← pathUrl fromFile p; SourceId.new k v : Outcome SourceId) = .ok s ↔
      ∃ v, fromFile p = some v ∧ s = { url := v, kind := k } := by
    intro k
    unfold pathUrl
    cases hf : fromFile p with
    | none => constructor
              · intro h; cases h
              · rintro ⟨v, hv, -⟩; cases hv
    | some v => constructor
                · intro h; cases h; exact ⟨v, rfl, rfl⟩
                · rintro ⟨_, hv, rfl⟩; cases hv; rfl
  refine ⟨⟨fun h => by cases h; rfl, ?_⟩, ⟨fun h => by cases h; rfl, ?_⟩, hp _, hp _, hp _⟩
  · rintro rfl; rfl
  · rintro rfl; rfl

/-- **Property C99** (kinds of constructed sources): each constructor makes a source of its kind and of no other; a local registry is
a registry that is not remote, and a directory is none of these. -/
theorem C99_constructed_kinds (fromFile : Str → Option Url) (u : Url) (r : GitReference) (p : Str) (s : SourceId) :
    (SourceId.forGit u r = .ok s → s.isGit = true ∧ s.isPath = false ∧ s.isRegistry = false ∧ s.isRemoteRegistry = false) ∧
    (SourceId.forRegistry u = .ok s → s.isGit = false ∧ s.isPath = false ∧ s.isRegistry = true ∧ s.isRemoteRegistry = true) ∧
    (SourceId.forPath fromFile p = .ok s →
      s.isGit = false ∧ s.isPath = true ∧ s.isRegistry = false ∧ s.isRemoteRegistry = false) ∧
    (SourceId.forLocalRegistry fromFile p = .ok s →
      s.isGit = false ∧ s.isPath = false ∧ s.isRegistry = true ∧ s.isRemoteRegistry = false) ∧
    (SourceId.forDirectory fromFile p = .ok s →
      s.isGit = false ∧ s.isPath = false ∧ s.isRegistry = false ∧ s.isRemoteRegistry = false) := by
  obtain ⟨h1, h2, h3, h4, h5⟩ := C99_constructors fromFile u r p s
  refine ⟨fun h => ?_, fun h => ?_, fun h => ?_, fun h => ?_, fun h => ?_⟩
  · rw [h1.mp h]; exact ⟨rfl, rfl, rfl, rfl⟩
  · rw [h2.mp h]; exact ⟨rfl, rfl, rfl, rfl⟩
  · obtain ⟨v, -, rfl⟩ := h3.mp h; exact ⟨rfl, rfl, rfl, rfl⟩
  · obtain ⟨v, -, rfl⟩ := h4.mp h; exact ⟨rfl, rfl, rfl, rfl⟩
  · obtain ⟨v, -, rfl⟩ := h5.mp h; exact ⟨rfl, rfl, rfl, rfl⟩

/-- **C99.**  Giving another revision changes nothing else; the last one given counts.  The text of a source that is not a git
repository does not show it; the text of a git repository ends with it. -/
theorem C99_with_precise (s : SourceId) (v w : Option Str) :
    (s.withPrecise v).precise = v ∧ (s.withPrecise v).url = s.url ∧ (s.withPrecise v).kind = s.kind ∧
    (s.withPrecise v).isDefaultRegistry = s.isDefaultRegistry ∧
    (s.withPrecise v).withPrecise w = s.withPrecise w ∧ s.withPrecise s.precise = s ∧
    (∀ enc, s.isGit = false → (s.withPrecise v).asUrl enc = s.asUrl enc) ∧
    (∀ enc, s.isGit = true → (s.withPrecise v).asUrl enc =
      (s.withPrecise none).asUrl enc ++ (match v with | some x => '#' :: x | none => [])) := by
  refine ⟨rfl, rfl, rfl, rfl, rfl, rfl, fun enc h => ?_, fun enc h => ?_⟩
  · unfold SourceId.asUrl SourceId.withPrecise
    unfold SourceId.isGit at h
    cases hk : s.kind <;> first | rfl | (rw [hk] at h; cases h)
  · unfold SourceId.asUrl SourceId.withPrecise
    unfold SourceId.isGit at h
    cases hk : s.kind <;> rw [hk] at h <;> try cases h
    cases v with
    | none => simp [optPart]
    | some x => simp [optPart]

/-- The names of registries are not set anywhere. -/
theorem obtained_name {U : UrlLib} {fromFile : Str → Option Url} {s : SourceId} (h : Obtained U fromFile s) : s.name = none := by
  induction h with
  | parsed h => rw [source_iff] at h; cases h <;> rfl
  | git h => cases h; rfl
  | registry h => cases h; rfl
  | @path p s h => obtain ⟨v, -, rfl⟩ := (C99_constructors fromFile ⟨[], none, none⟩ .defaultBranch p s).2.2.1.1 h; rfl
  | @localRegistry p s h => obtain ⟨v, -, rfl⟩ := (C99_constructors fromFile ⟨[], none, none⟩ .defaultBranch p s).2.2.2.1.1 h; rfl
  | @directory p s h => obtain ⟨v, -, rfl⟩ := (C99_constructors fromFile ⟨[], none, none⟩ .defaultBranch p s).2.2.2.2.1 h; rfl
  | default => rfl
  | precise _ ih => exact ih

/-- **C99.**  For every source that a program can obtain: the name of its registry is `crates.io` for the default registry,
and else its URL. -/
theorem C99_registry_name (U : UrlLib) (fromFile : Str → Option Url) (s : SourceId) (h : Obtained U fromFile s) :
    (s.isDefaultRegistry = true → s.displayRegistryName = "crates.io".toList ∧ s.displayIndex = "crates.io index".toList) ∧
    (s.isDefaultRegistry = false → s.displayRegistryName = s.url.text ∧
      s.displayIndex = "`".toList ++ s.url.text ++ "` index".toList) := by
  refine ⟨fun hd => ?_, fun hd => ?_⟩
  · unfold SourceId.displayRegistryName SourceId.displayIndex
    rw [hd, if_pos rfl, if_pos rfl]
    exact ⟨rfl, rfl⟩
  · unfold SourceId.displayRegistryName SourceId.displayIndex
    rw [hd, obtained_name h]
    exact ⟨rfl, rfl⟩

/-- **C99.**  The descriptions of two indexes are the same only if they have the same URL or are both crates.io. -/
theorem C99_index_distinct (a b : SourceId) (h : a.displayIndex = b.displayIndex) :
    a.isDefaultRegistry = b.isDefaultRegistry ∧ (a.isDefaultRegistry = false → a.url.text = b.url.text) := by
  unfold SourceId.displayIndex at h
  cases ha : a.isDefaultRegistry <;> cases hb : b.isDefaultRegistry <;> rw [ha, hb] at h
  · refine ⟨rfl, fun _ => ?_⟩
    exact List.append_cancel_right (List.cons.inj h).2
  · exact absurd (congrArg List.head? h) (by simp)
  · exact absurd (congrArg List.head? h) (by simp)
  · exact ⟨rfl, fun h => by cases h⟩

/-- **C99.**  Every source that a program can obtain answers consistently: it is a git repository exactly if it has a
reference, a remote registry is a registry, it is not both a registry and a git repository or a path, the default registry is
a remote registry; sources that compare equal answer the same (except for the reference and the revision). -/
theorem C99_consistent (a b : SourceId) :
    (a.isGit = true ↔ ∃ r, a.gitReference = some r) ∧
    (a.isRemoteRegistry = true → a.isRegistry = true) ∧
    (a.isRegistry = true → a.isGit = false ∧ a.isPath = false) ∧ (a.isPath = true → a.isGit = false) ∧
    (a.isDefaultRegistry = true → a.isRemoteRegistry = true) ∧
    (a.eq b = true → a.isGit = b.isGit ∧ a.isPath = b.isPath ∧ a.isRegistry = b.isRegistry ∧
      a.isRemoteRegistry = b.isRemoteRegistry ∧ a.isDefaultRegistry = b.isDefaultRegistry ∧
      a.displayIndex = b.displayIndex ∧ a.displayRegistryName = b.displayRegistryName) := by
  refine ⟨?_, ?_, ?_, ?_, ?_, fun h => ?_⟩
  · unfold SourceId.isGit SourceId.gitReference; cases a.kind <;> simp
  · unfold SourceId.isRemoteRegistry SourceId.isRegistry; cases a.kind <;> simp
  · unfold SourceId.isGit SourceId.isPath SourceId.isRegistry; cases a.kind <;> simp
  · unfold SourceId.isGit SourceId.isPath; cases a.kind <;> simp
  · unfold SourceId.isRemoteRegistry SourceId.isDefaultRegistry; cases a.kind <;> simp
  · have hd := C27_default_registry a b h
    obtain ⟨hu, hn, hk⟩ := (C27_eq_iff a b).mp h
    have hx : a.displayIndex = b.displayIndex ∧ a.displayRegistryName = b.displayRegistryName := by
      unfold SourceId.displayIndex SourceId.displayRegistryName
      rw [hd, hu, hn]
      exact ⟨rfl, rfl⟩
    unfold SourceId.isGit SourceId.isPath SourceId.isRegistry SourceId.isRemoteRegistry
    rcases hk with ⟨⟨r, hr⟩, ⟨r', hr'⟩, _⟩ | ⟨_, hk⟩
    · rw [hr, hr']; exact ⟨rfl, rfl, rfl, rfl, hd, hx⟩
    · rw [hk]; exact ⟨rfl, rfl, rfl, rfl, hd, hx⟩

/-- **C99.**  In a structured document a path is null, and any other source is its text, from which it is read again (if the
name of the git reference is plain, see C26). -/
theorem C99_serialized (U : UrlLib) (hU : UrlLib.Lawful U) (t : Str) (s : SourceId) (h : SourceId.fromUrl U t = .ok s) :
    ("path+".toList <+: t → s.serialized = none) ∧
    (¬ "path+".toList <+: t → (∀ r, s.gitReference = some r → PlainRef r s.precise) →
      ∃ t', s.serialized = some t' ∧ SourceId.fromUrl U t' = .ok s) := by
  obtain ⟨hp, -, -, -⟩ := C99_kinds U t s h
  refine ⟨fun ht => ?_, fun ht hr => ?_⟩
  · unfold SourceId.serialized; rw [if_pos (hp.2 ht)]
  · refine ⟨s.asUrl false, ?_, C26_display_round_trip hU h fun r hk => hr r ?_⟩
    · unfold SourceId.serialized; rw [if_neg fun hx => ht (hp.1 hx)]
    · unfold SourceId.gitReference; rw [hk]

/-- A registry, a git repository and a path are read; the registry is the default one. -/
example :
    (∃ s, SourceId.fromUrl toyUrl "registry+https://github.com/rust-lang/crates.io-index".toList = .ok s ∧
      s.isDefaultRegistry = true ∧ s.displayIndex = "crates.io index".toList) ∧
    (∃ s, SourceId.fromUrl toyUrl "git+https://a.b/c?tag=v1#abc".toList = .ok s ∧
      s.gitReference = some (.tag "v1".toList) ∧ s.precise = some "abc".toList ∧
      s.displayIndex = "`https://a.b/c` index".toList) ∧
    (∃ s, SourceId.fromUrl toyUrl "path+https://x/y".toList = .ok s ∧ s.isPath = true ∧ s.serialized = none) :=
  ⟨⟨⟨⟨cratesIoIndex, none, none⟩, .registry, some "locked".toList, none⟩, by decide +kernel, by decide +kernel, by decide +kernel⟩,
    ⟨⟨⟨"https://a.b/c".toList, none, none⟩, .git (.tag "v1".toList), some "abc".toList, none⟩, by decide +kernel, by decide +kernel,
      by decide +kernel, by decide +kernel⟩,
    ⟨⟨⟨"https://x/y".toList, none, none⟩, .path, none, none⟩, by decide +kernel, by decide +kernel, by decide +kernel⟩⟩

end Verif.Props
