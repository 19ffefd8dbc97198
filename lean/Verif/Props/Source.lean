import Verif.Lemmas.Source

/-!
# C26: source identifiers survive printing and parsing
-/

namespace Verif.Props

open Verif Verif.Lock

/-! ## Specification -/

/-- What we assume of `Url::parse` on the part before `?` and `#`: normalising is idempotent, and a
normalised base is not empty, contains no `?`, `#`, tab or newline, and neither starts nor ends with a space
or control character. -/
structure UrlLib.Lawful (L : UrlLib) : Prop where
  idem : ∀ b b', L.base b = some b' → L.base b' = some b'
  clean : ∀ b b', L.base b = some b' → b' ≠ [] ∧ (∀ c ∈ b', c ∉ ['?', '#', '\t', '\n', '\r']) ∧
    (∀ c, b'.head? = some c → ' ' < c) ∧ (∀ c, b'.getLast? = some c → ' ' < c)

/-- The text of a branch, tag or revision name. -/
def refText : GitReference → Str
  | .defaultBranch => []
  | .tag s => s
  | .branch s => s
  | .rev s => s

/-- A reference name that the unencoded form (lockfile formats before V4, and `Display`) can carry: none of
the characters a URL query gives a meaning to, and, when no revision follows, no space or control character
at the end. -/
def PlainRef (r : GitReference) (precise : Option Str) : Prop :=
  (∀ c ∈ refText r, c ∉ ['#', '&', '+', '%', '\t', '\n', '\r']) ∧
  (precise = none → ∀ c, (refText r).getLast? = some c → ' ' < c)

/-- A source as `from_url` produces it for git: a normalised URL without query and fragment, no registry
name, and a revision that is text a URL fragment can hold. -/
structure GitSource (L : UrlLib) (s : SourceId) : Prop where
  kind : ∃ r, s.kind = .git r
  base : L.base s.url.base = some s.url.base
  query : s.url.query = none
  fragment : s.url.fragment = none
  precise : ∀ p, s.precise = some p → ∀ c ∈ p, keepFragment c = true
  name : s.name = none

/-! ## Lemmas -/

theorem keepQ_gt {sp : Bool} {c : Char} (h : keepQuery sp c = true) : ' ' < c := by
  simp only [keepQuery, Bool.and_eq_true, decide_eq_true_eq] at h; exact h.1.1.1.1.1.1

private theorem keepQ_hash {sp : Bool} {c : Char} (h : keepQuery sp c = true) : c ≠ '#' := by
  rintro rfl; cases sp <;> exact absurd h (by decide)

theorem keep_ascii {c : Char} : (keepFragment c = true → c < Char.ofNat 127) ∧
    (∀ sp, keepQuery sp c = true → c < Char.ofNat 127) := by
  constructor
  · intro h; simp only [keepFragment, Bool.and_eq_true, decide_eq_true_eq] at h; exact h.1.1.1.1.2
  · intro sp h; simp only [keepQuery, Bool.and_eq_true, decide_eq_true_eq] at h; exact h.1.1.1.1.1.2

theorem keepF_gt {c : Char} (h : keepFragment c = true) : ' ' < c := by
  simp only [keepFragment, Bool.and_eq_true, decide_eq_true_eq] at h; exact h.1.1.1.1.1

private theorem keep_hex : ∀ c n, hexVal c = some n →
    keepFragment c = true ∧ ∀ sp, keepQuery sp c = true := by
  intro c n h
  have key : ∀ k ≤ 102, (hexVal (Char.ofNat k)).isSome = true →
      keepFragment (Char.ofNat k) = true ∧ ∀ sp, keepQuery sp (Char.ofNat k) = true := by decide +kernel
  have hle : c.toNat ≤ 102 := by
    unfold hexVal at h
    split at h
    · rename_i hr; have : c.toNat ≤ 57 := hr.2; omega
    · split at h
      · rename_i hr; exact hr.2
      · split at h
        · rename_i hr; have : c.toNat ≤ 70 := hr.2; omega
        · cases h
  have := key c.toNat hle
  rw [Char.ofNat_toNat] at this
  exact this (by rw [h]; rfl)

private theorem not_tab_of_gt {c : Char} (h : ' ' < c) : c ≠ '\t' ∧ c ≠ '\n' ∧ c ≠ '\r' := by
  refine ⟨?_, ?_, ?_⟩ <;> (rintro rfl; exact absurd h (by decide))

private theorem mem_optPart {c d : Char} {t : Option Str} (h : d ∈ optPart c t) :
    d = c ∨ ∃ u, t = some u ∧ d ∈ u := by
  cases t with
  | none => cases h
  | some u => rcases List.mem_cons.mp h with h | h
              · exact Or.inl h
              · exact Or.inr ⟨u, rfl, h⟩

private theorem getLast?_optPart {c d : Char} {t : Option Str} (h : (optPart c t).getLast? = some d) :
    d = c ∨ ∃ u, t = some u ∧ u.getLast? = some d := by
  cases t with
  | none => cases h
  | some u =>
    cases u with
    | nil => simp [optPart] at h; exact Or.inl h.symm
    | cons x xs =>
      right
      refine ⟨_, rfl, ?_⟩
      rw [optPart, List.getLast?_cons_cons] at h
      exact h

private theorem getLast?_append' {a b : Str} {d : Char} (h : (a ++ b).getLast? = some d) :
    b.getLast? = some d ∨ (b = [] ∧ a.getLast? = some d) := by
  rw [List.getLast?_append] at h
  cases hb : b.getLast? with
  | none =>
    rw [hb] at h
    right
    exact ⟨List.getLast?_eq_none_iff.mp hb, by simpa using h⟩
  | some x => rw [hb] at h; left; simpa using h

/-- Parsing `base?query#fragment` when the base is normalised. -/
private theorem parse_parts {L : UrlLib} (hL : UrlLib.Lawful L) {b : Str} (hb : L.base b = some b)
    {q f : Option Str}
    (hq : ∀ t, q = some t → ∀ c ∈ t, c ∉ ['#', '\t', '\n', '\r'])
    (hf : ∀ t, f = some t → ∀ c ∈ t, keepFragment c = true)
    (hlast : f = none → ∀ t, q = some t → ∀ c, t.getLast? = some c → ' ' < c) :
    Url.parse L (b ++ optPart '?' q ++ optPart '#' f) =
      some { base := b, query := q.map (pctEncode (keepQuery (L.special b))), fragment := f } := by
  obtain ⟨hne, hcl, hhd, hlst⟩ := hL.clean b b hb
  have hfrag : f.map (pctEncode keepFragment) = f := by
    cases f with
    | none => rfl
    | some t => simp only [Option.map_some]; rw [pctEncode_of_kept (hf t rfl)]
  have htrim : trimCtl (b ++ optPart '?' q ++ optPart '#' f) = b ++ optPart '?' q ++ optPart '#' f := by
    apply trimCtl_id
    · intro c hc
      cases b with
      | nil => exact absurd rfl hne
      | cons x xs => exact hhd c (by simpa using hc)
    · intro c hc
      rcases getLast?_append' hc with h | ⟨he, h⟩
      · rcases getLast?_optPart h with rfl | ⟨u, hu, h⟩
        · decide
        · exact keepF_gt (hf u hu c (List.mem_of_getLast? h))
      · have hfn : f = none := by cases f with | none => rfl | some _ => cases he
        rcases getLast?_append' h with h | ⟨_, h⟩
        · rcases getLast?_optPart h with rfl | ⟨u, hu, h⟩
          · decide
          · exact hlast hfn u hu c h
        · exact hlst c h
  have htabs : dropTabs (b ++ optPart '?' q ++ optPart '#' f) = b ++ optPart '?' q ++ optPart '#' f := by
    apply dropTabs_id
    intro c hc
    rcases List.mem_append.mp hc with hc | hc
    · rcases List.mem_append.mp hc with hc | hc
      · have := hcl c hc
        simp only [List.mem_cons, List.not_mem_nil, or_false, not_or] at this
        exact ⟨this.2.2.1, this.2.2.2.1, this.2.2.2.2⟩
      · rcases mem_optPart hc with rfl | ⟨u, hu, hc⟩
        · decide
        · have := hq u hu c hc
          simp only [List.mem_cons, List.not_mem_nil, or_false, not_or] at this
          exact ⟨this.2.1, this.2.2.1, this.2.2.2⟩
    · rcases mem_optPart hc with rfl | ⟨u, hu, hc⟩
      · decide
      · exact not_tab_of_gt (keepF_gt (hf u hu c hc))
  have hh1 : '#' ∉ b ++ optPart '?' q := by
    intro hc
    rcases List.mem_append.mp hc with hc | hc
    · exact absurd (hcl _ hc) (by decide)
    · rcases mem_optPart hc with h | ⟨u, hu, hc⟩
      · exact absurd h (by decide)
      · exact absurd (hq u hu _ hc) (by decide)
  have hh2 : '?' ∉ b := fun hc => absurd (hcl _ hc) (by decide)
  unfold Url.parse
  rw [htrim, htabs, cutC_optPart hh1]
  simp only
  rw [cutC_optPart hh2]
  simp only
  rw [hb]
  simp only
  rw [hfrag]

/-- Any parsed URL parses back from its text. -/
private theorem parse_text {L : UrlLib} (hL : UrlLib.Lawful L) {t : Str} {u : Url} (h : Url.parse L t = some u) :
    L.base u.base = some u.base ∧ (∀ f, u.fragment = some f → ∀ c ∈ f, keepFragment c = true) ∧
      Url.parse L u.text = some u := by
  unfold Url.parse at h
  cases hc1 : cutC '#' (dropTabs (trimCtl t)) with
  | mk rest frag =>
    rw [hc1] at h
    simp only at h
    cases hc2 : cutC '?' rest with
    | mk b q =>
      rw [hc2] at h
      simp only at h
      cases hb : L.base b with
      | none => rw [hb] at h; cases h
      | some b' =>
        rw [hb] at h
        simp only [Option.some.injEq] at h
        have hkf : ∀ f, frag.map (pctEncode keepFragment) = some f → ∀ c ∈ f, keepFragment c = true := by
          intro f hf c hc
          cases frag with
          | none => cases hf
          | some f0 =>
            simp only [Option.map_some, Option.some.injEq] at hf; subst hf
            exact kept_pctEncode (by decide) (fun n => (hexDigitUpper_kept n).1) f0 c hc
        have hkq : ∀ f, q.map (pctEncode (keepQuery (L.special b'))) = some f → ∀ c ∈ f,
            keepQuery (L.special b') c = true := by
          intro f hf c hc
          cases q with
          | none => cases hf
          | some f0 =>
            simp only [Option.map_some, Option.some.injEq] at hf; subst hf
            refine kept_pctEncode ?_ (fun n => (hexDigitUpper_kept n).2 _) f0 c hc
            cases L.special b' <;> decide
        subst h
        refine ⟨hL.idem b b' hb, hkf, ?_⟩
        have := parse_parts hL (hL.idem b b' hb) (q := q.map (pctEncode (keepQuery (L.special b'))))
          (f := frag.map (pctEncode keepFragment)) ?_ hkf ?_
        · have htext : Url.text ⟨b', q.map (pctEncode (keepQuery (L.special b'))),
                frag.map (pctEncode keepFragment)⟩ =
              b' ++ optPart '?' (q.map (pctEncode (keepQuery (L.special b')))) ++
                optPart '#' (frag.map (pctEncode keepFragment)) := by
            unfold Url.text; cases q <;> cases frag <;> rfl
          rw [htext, this]
          congr 2
          cases q with
          | none => rfl
          | some q0 =>
            simp only [Option.map_some, Option.some.injEq]
            exact pctEncode_of_kept (hkq _ rfl)
        · intro t ht c hc
          have hk := hkq t ht c hc
          have h1 := not_tab_of_gt (keepQ_gt hk)
          simp only [List.mem_cons, List.not_mem_nil, or_false, not_or]
          exact ⟨keepQ_hash hk, h1.1, h1.2.1, h1.2.2⟩
        · intro _ t ht c hc
          exact keepQ_gt (hkq t ht c (List.mem_of_getLast? hc))

private theorem cut_prefix {k : Str} (hk : '+' ∉ k) (t : Str) : cutC '+' (k ++ ('+' :: t)) = (k, some t) :=
  cutC_append hk t

private theorem fromUrl_git {L : UrlLib} {t : Str} {u : Url} (h : Url.parse L t = some u) :
    SourceId.fromUrl L ("git+".toList ++ t) =
      .ok { url := { base := u.base }, kind := .git (refOfPairs u.queryPairs), precise := u.fragment } := by
  have : "git+".toList ++ t = "git".toList ++ ('+' :: t) := rfl
  unfold SourceId.fromUrl
  rw [this, cut_prefix (by decide)]
  simp only
  rw [if_pos True.intro, h]

private theorem fromUrl_registry {L : UrlLib} {t : Str} {u : Url} (h : Url.parse L t = some u) :
    SourceId.fromUrl L ("registry+".toList ++ t) =
      .ok { url := u, kind := .registry, precise := some "locked".toList } := by
  have : "registry+".toList ++ t = "registry".toList ++ ('+' :: t) := rfl
  unfold SourceId.fromUrl
  rw [this, cut_prefix (by decide)]
  simp only
  rw [if_neg (by decide), if_pos True.intro, h]

private theorem fromUrl_sparse {L : UrlLib} {t : Str} {u : Url} (h : Url.parse L t = some u) :
    SourceId.fromUrl L ("sparse+".toList ++ t) =
      .ok { url := u, kind := .sparseRegistry, precise := some "locked".toList } := by
  have : "sparse+".toList ++ t = "sparse".toList ++ ('+' :: t) := rfl
  unfold SourceId.fromUrl
  rw [this, cut_prefix (by decide)]
  simp only
  rw [if_neg (by decide), if_neg (by decide), if_pos True.intro, h]

private theorem fromUrl_path {L : UrlLib} {t : Str} {u : Url} (h : Url.parse L t = some u) :
    SourceId.fromUrl L ("path+".toList ++ t) = .ok { url := u, kind := .path } := by
  have : "path+".toList ++ t = "path".toList ++ ('+' :: t) := rfl
  unfold SourceId.fromUrl
  rw [this, cut_prefix (by decide)]
  simp only
  rw [if_neg (by decide), if_neg (by decide), if_neg (by decide), if_pos True.intro, h]

/-- The query `key=value` names the reference it was printed from. -/
private theorem refOfPairs_single {sp : Bool} {key v r : Str}
    (hkey : key = "branch".toList ∨ key = "tag".toList ∨ key = "rev".toList)
    (hamp : '&' ∉ v) (hdec : formDecode v = utf8 r) :
    refOfPairs (Url.queryPairs { base := [], query := some (pctEncode (keepQuery sp) (key ++ '=' :: v)) }) =
      (if key = "branch".toList then .branch r else if key = "tag".toList then .tag r else .rev r) := by
  have hkk : ∀ sp, ∀ c ∈ key, keepQuery sp c = true := by
    rcases hkey with rfl | rfl | rfl <;> decide +kernel
  have henc : pctEncode (keepQuery sp) (key ++ '=' :: v) = key ++ '=' :: pctEncode (keepQuery sp) v := by
    have : pctEncode (keepQuery sp) (key ++ '=' :: v) = pctEncode (keepQuery sp) key ++
        (pctEncode (keepQuery sp) ['='] ++ pctEncode (keepQuery sp) v) := by simp [pctEncode]
    rw [this, pctEncode_of_kept (hkk sp), pctEncode_of_kept (s := ['='])]
    · rfl
    · cases sp <;> decide
  have hampenc : '&' ∉ pctEncode (keepQuery sp) v := by
    intro hc
    obtain ⟨x, hx, hc⟩ := List.mem_flatMap.mp hc
    split at hc
    · rw [List.mem_singleton] at hc; subst hc; exact hamp hx
    · have key2 : ∀ n, hexDigitUpper n ≠ '&' := by
        intro n
        by_cases hn : n < 16
        · have : ∀ n < 16, hexDigitUpper n ≠ '&' := by decide +kernel
          exact this n hn
        · unfold hexDigitUpper
          rw [List.getD_eq_getElem?_getD, List.getElem?_eq_none, Option.getD_none]
          · decide
          · have : "0123456789ABCDEF".toList.length = 16 := by decide
            omega
      have : (fun c => !(c == '&')) '&' = true := by
        exact kept_pctBytes (keep := fun c => !(c == '&')) (by decide)
          (fun n => by simpa using key2 n) _ '&' hc
      exact absurd this (by decide)
  have hampkey : '&' ∉ key := by rcases hkey with rfl | rfl | rfl <;> decide
  have heqkey : '=' ∉ key := by rcases hkey with rfl | rfl | rfl <;> decide
  have hnoamp : '&' ∉ key ++ '=' :: pctEncode (keepQuery sp) v := by
    intro hc
    rcases List.mem_append.mp hc with hc | hc
    · exact hampkey hc
    · rcases List.mem_cons.mp hc with hc | hc
      · exact absurd hc (by decide)
      · exact hampenc hc
  have hval : lossy (formDecode (pctEncode (keepQuery sp) v)) = r := by
    rw [formDecode_pctEncode, hdec, lossy_utf8]
    · cases sp <;> decide
    · cases sp <;> decide
    · intro c n h; exact (keep_hex c n h).2 sp
  have hkeyd : lossy (formDecode key) = key := by
    rw [formDecode_noPlusPct, lossy_utf8]
    rcases hkey with rfl | rfl | rfl <;> decide
  have hpairs : Url.queryPairs { base := [], query := some (pctEncode (keepQuery sp) (key ++ '=' :: v)) } =
      [(key, r)] := by
    unfold Url.queryPairs
    simp only
    rw [henc, splitC_of_not_mem hnoamp]
    have hne : (!(key ++ '=' :: pctEncode (keepQuery sp) v).isEmpty) = true := by
      rcases hkey with rfl | rfl | rfl <;> rfl
    rw [List.filter_cons, if_pos hne]
    simp only [List.filter_nil, List.map_cons, List.map_nil, decodePair]
    rw [cutC_append heqkey]
    simp only [Option.getD_some]
    rw [hval, hkeyd]
  rw [hpairs]
  simp only [refOfPairs, List.foldl_cons, List.foldl_nil, refStep]
  rcases hkey with rfl | rfl | rfl
  · rw [if_pos (Or.inl rfl), if_pos rfl]
  · rw [if_neg (by decide), if_neg (by decide), if_pos rfl, if_neg (by decide), if_pos rfl]
  · rw [if_neg (by decide), if_pos rfl, if_neg (by decide), if_neg (by decide)]

private theorem queryPairs_base (u : Url) : u.queryPairs = Url.queryPairs { base := [], query := u.query } := by
  unfold Url.queryPairs; rfl

/-- Core of the git round trip, for either spelling of the reference value. -/
private theorem git_round {L : UrlLib} (hL : UrlLib.Lawful L) {s : SourceId} (hs : GitSource L s)
    {enc : Bool} {r : GitReference} (hr : s.kind = .git r)
    (hchars : ∀ c ∈ refValue enc (refText r), c ∉ ['#', '&', '\t', '\n', '\r'])
    (hdec : formDecode (refValue enc (refText r)) = utf8 (refText r))
    (hlast : s.precise = none → ∀ c, (refValue enc (refText r)).getLast? = some c → ' ' < c) :
    SourceId.fromUrl L (s.asUrl enc) = .ok s := by
  obtain ⟨⟨b, q, f⟩, kind, precise, name⟩ := s
  obtain ⟨_, hbase, hquery, hfragment, hprecise, hname⟩ := hs
  simp only at hr hbase hquery hfragment hprecise hname hlast
  subst hr hquery hfragment hname
  have hasurl : SourceId.asUrl enc ⟨⟨b, none, none⟩, .git r, precise, none⟩ =
      "git+".toList ++ (b ++ optPart '?' (r.pretty enc) ++ optPart '#' precise) := by
    unfold SourceId.asUrl
    simp only [Url.text, List.append_nil, List.append_assoc]
  rw [hasurl]
  have main : ∀ (key : Str), (key = "branch".toList ∨ key = "tag".toList ∨ key = "rev".toList) →
      r.pretty enc = some (key ++ '=' :: refValue enc (refText r)) →
      (if key = "branch".toList then GitReference.branch (refText r) else
        if key = "tag".toList then .tag (refText r) else .rev (refText r)) = r →
      SourceId.fromUrl L ("git+".toList ++ (b ++ optPart '?' (r.pretty enc) ++ optPart '#' precise)) =
        .ok ⟨⟨b, none, none⟩, .git r, precise, none⟩ := by
    intro key hkey hpretty hres
    have hp := parse_parts hL hbase (q := r.pretty enc) (f := precise) ?_ hprecise ?_
    · rw [fromUrl_git hp, queryPairs_base]
      simp only [hpretty, Option.map_some]
      rw [refOfPairs_single hkey (fun hc => absurd (hchars _ hc) (by decide)) hdec, hres]
    · intro t ht c hc
      rw [hpretty, Option.some.injEq] at ht
      subst ht
      rcases List.mem_append.mp hc with hc | hc
      · have : ∀ c ∈ key, c ∉ ['#', '\t', '\n', '\r'] := by
          rcases hkey with rfl | rfl | rfl <;> decide
        exact this c hc
      · rcases List.mem_cons.mp hc with rfl | hc
        · decide
        · have := hchars c hc
          simp only [List.mem_cons, List.not_mem_nil, or_false, not_or] at this ⊢
          exact ⟨this.1, this.2.2⟩
    · intro hn t ht c hc
      rw [hpretty, Option.some.injEq] at ht
      subst ht
      rcases getLast?_append' hc with h | ⟨h, _⟩
      · cases hv : refValue enc (refText r) with
        | nil => rw [hv] at h; simp at h; subst h; decide
        | cons x xs =>
          rw [hv, List.getLast?_cons_cons, ← hv] at h
          exact hlast hn c h
      · cases h
  cases r with
  | defaultBranch =>
    have hp := parse_parts hL hbase (q := none) (f := precise) (by simp) hprecise (by simp)
    rw [show GitReference.pretty enc .defaultBranch = none from rfl, fromUrl_git hp]
    rfl
  | branch t => exact main "branch".toList (Or.inl rfl) rfl (by rw [if_pos rfl]; rfl)
  | tag t => exact main "tag".toList (Or.inr (Or.inl rfl)) rfl (by
      rw [if_neg (by decide), if_pos rfl]; rfl)
  | rev t => exact main "rev".toList (Or.inr (Or.inr rfl)) rfl (by
      rw [if_neg (by decide), if_neg (by decide)]; rfl)

theorem byteSerialize_chars (s : Str) : ∀ c ∈ byteSerialize s,
    c ∉ ['#', '&', '\t', '\n', '\r'] ∧ ' ' < c := by
  intro c hc
  obtain ⟨x, hx, hc⟩ := List.mem_flatMap.mp hc
  have good : ∀ c : Char, (c.isAlphanum || decide (c ∈ ['*', '-', '.', '_'])) = true →
      c ∉ ['#', '&', '\t', '\n', '\r'] ∧ ' ' < c := by
    intro c h
    refine ⟨?_, ?_⟩
    · intro hm
      simp only [List.mem_cons, List.not_mem_nil, or_false] at hm
      rcases hm with rfl | rfl | rfl | rfl | rfl <;> exact absurd h (by decide)
    · have hn : 33 ≤ c.toNat := by
        simp only [Bool.or_eq_true, Char.isAlphanum, Char.isAlpha, Char.isUpper, Char.isLower, Char.isDigit,
          decide_eq_true_eq, Bool.and_eq_true] at h
        rcases h with ((⟨h, _⟩ | ⟨h, _⟩) | ⟨h, _⟩) | h
        · have : (65 : UInt32).toNat ≤ c.toNat := h
          have e : (65 : UInt32).toNat = 65 := by decide
          omega
        · have : (97 : UInt32).toNat ≤ c.toNat := h
          have e : (97 : UInt32).toNat = 97 := by decide
          omega
        · have : (48 : UInt32).toNat ≤ c.toNat := h
          have e : (48 : UInt32).toNat = 48 := by decide
          omega
        · simp only [List.mem_cons, List.not_mem_nil, or_false] at h
          rcases h with rfl | rfl | rfl | rfl <;> decide
      show ' '.toNat < c.toNat
      have : ' '.toNat = 32 := by decide
      omega
  split at hc
  · rename_i hk; rw [List.mem_singleton] at hc; subst hc; exact good _ hk
  · split at hc
    · rw [List.mem_singleton] at hc; subst hc; decide
    · have hd : ∀ n, ((fun c => decide (c ∉ ['#', '&', '\t', '\n', '\r'] ∧ ' ' < c)) (hexDigitUpper n)) = true := by
        intro n
        by_cases hn : n < 16
        · have : ∀ n < 16, decide (hexDigitUpper n ∉ ['#', '&', '\t', '\n', '\r'] ∧ ' ' < hexDigitUpper n) = true := by
            decide +kernel
          exact this n hn
        · unfold hexDigitUpper
          rw [List.getD_eq_getElem?_getD, List.getElem?_eq_none, Option.getD_none]
          · decide
          · have : "0123456789ABCDEF".toList.length = 16 := by decide
            omega
      have := kept_pctBytes (keep := fun c => decide (c ∉ ['#', '&', '\t', '\n', '\r'] ∧ ' ' < c))
        (by decide) hd _ c hc
      exact of_decide_eq_true this

/-! ## Theorems -/

/-- What `from_url` can return: a git source in the normal form above, or a registry (marked `locked`), sparse
registry (marked `locked`) or path source whose URL is its own normal form. -/
theorem C26_parsed_shape {L : UrlLib} (hL : UrlLib.Lawful L) {t : Str} {s : SourceId}
    (h : SourceId.fromUrl L t = .ok s) :
    s.name = none ∧
    (GitSource L s ∨
     (s.kind = .registry ∧ s.precise = some "locked".toList ∧ Url.parse L s.url.text = some s.url) ∨
     (s.kind = .sparseRegistry ∧ s.precise = some "locked".toList ∧ Url.parse L s.url.text = some s.url) ∨
     (s.kind = .path ∧ s.precise = none ∧ Url.parse L s.url.text = some s.url)) := by
  unfold SourceId.fromUrl at h
  cases hc : cutC '+' t with
  | mk k rest =>
    rw [hc] at h
    cases rest with
    | none => cases h
    | some rest =>
      simp only at h
      cases hp : Url.parse L rest with
      | none => rw [hp] at h; simp only at h; split at h <;> (try split at h) <;> (try split at h) <;>
                  (try split at h) <;> cases h
      | some u =>
        rw [hp] at h
        simp only at h
        obtain ⟨hb, hf, ht⟩ := parse_text hL hp
        split at h
        · cases h
          exact ⟨rfl, Or.inl ⟨⟨_, rfl⟩, hb, rfl, rfl, hf, rfl⟩⟩
        · split at h
          · cases h; exact ⟨rfl, Or.inr (Or.inl ⟨rfl, rfl, ht⟩)⟩
          · split at h
            · cases h; exact ⟨rfl, Or.inr (Or.inr (Or.inl ⟨rfl, rfl, ht⟩))⟩
            · split at h
              · cases h; exact ⟨rfl, Or.inr (Or.inr (Or.inr ⟨rfl, rfl, ht⟩))⟩
              · cases h

/-- A git source in normal form, whatever characters its branch, tag or revision name contains, survives the
URL-encoded form (the one lockfile format V4 writes). -/
theorem C26_git_encoded {L : UrlLib} (hL : UrlLib.Lawful L) (s : SourceId) (hs : GitSource L s) :
    SourceId.fromUrl L (s.asUrl true) = .ok s := by
  obtain ⟨r, hr⟩ := hs.kind
  exact git_round hL hs hr (fun c hc => (byteSerialize_chars _ c hc).1) (formDecode_byteSerialize _)
    (fun _ c hc => (byteSerialize_chars _ c (List.mem_of_getLast? hc)).2)

/-- The unencoded form (`Display`, and lockfile formats V1 to V3) carries a git source if its reference name is
plain. -/
theorem C26_git_plain {L : UrlLib} (hL : UrlLib.Lawful L) (s : SourceId) (hs : GitSource L s)
    (hp : ∀ r, s.kind = .git r → PlainRef r s.precise) :
    SourceId.fromUrl L (s.asUrl false) = .ok s := by
  obtain ⟨r, hr⟩ := hs.kind
  obtain ⟨h1, h2⟩ := hp r hr
  refine git_round hL hs hr ?_ ?_ h2
  · intro c hc
    have := h1 c hc
    simp only [List.mem_cons, List.not_mem_nil, or_false, not_or] at this ⊢
    exact ⟨this.1, this.2.1, this.2.2.2.2⟩
  · apply formDecode_noPlusPct
    intro c hc
    have := h1 c hc
    simp only [List.mem_cons, List.not_mem_nil, or_false, not_or] at this
    exact ⟨this.2.2.1, this.2.2.2.1⟩

/-- C26: every source read from a text survives being printed in the encoded form and read again. -/
theorem C26_encoded_round_trip {L : UrlLib} (hL : UrlLib.Lawful L) {t : Str} {s : SourceId}
    (h : SourceId.fromUrl L t = .ok s) : SourceId.fromUrl L (s.asUrl true) = .ok s := by
  obtain ⟨hn, hg | ⟨hk, hpr, ht⟩ | ⟨hk, hpr, ht⟩ | ⟨hk, hpr, ht⟩⟩ := C26_parsed_shape hL h
  · exact C26_git_encoded hL s hg
  all_goals
    obtain ⟨u, k, p, n⟩ := s
    simp only at hn hk hpr ht
    subst hn hk hpr
    unfold SourceId.asUrl
    simp only
  · rw [fromUrl_registry ht]
  · rw [fromUrl_sparse ht]
  · rw [fromUrl_path ht]

/-- C26: every source read from a text survives `to_string` and `from_str`, if it is not a git source or its
reference name is plain. -/
theorem C26_display_round_trip {L : UrlLib} (hL : UrlLib.Lawful L) {t : Str} {s : SourceId}
    (h : SourceId.fromUrl L t = .ok s) (hp : ∀ r, s.kind = .git r → PlainRef r s.precise) :
    SourceId.fromUrl L (s.asUrl false) = .ok s := by
  obtain ⟨hn, hg | ⟨hk, hpr, ht⟩ | ⟨hk, hpr, ht⟩ | ⟨hk, hpr, ht⟩⟩ := C26_parsed_shape hL h
  · exact C26_git_plain hL s hg hp
  all_goals
    obtain ⟨u, k, p, n⟩ := s
    simp only at hn hk hpr ht
    subst hn hk hpr
    unfold SourceId.asUrl
    simp only
  · rw [fromUrl_registry ht]
  · rw [fromUrl_sparse ht]
  · rw [fromUrl_path ht]

/-- Local-registry and directory sources print, but what they print never parses. -/
theorem C26_local_unparsable (L : UrlLib) (s : SourceId) (enc : Bool)
    (h : s.kind = .localRegistry ∨ s.kind = .directory) : SourceId.fromUrl L (s.asUrl enc) = .err := by
  unfold SourceId.asUrl
  rcases h with h | h <;> rw [h] <;> simp only
  · have : "local-registry+".toList ++ s.url.text = "local-registry".toList ++ ('+' :: s.url.text) := rfl
    unfold SourceId.fromUrl
    rw [this, cut_prefix (by decide)]
    simp only
    rw [if_neg (by decide), if_neg (by decide), if_neg (by decide), if_neg (by decide)]
  · have : "directory+".toList ++ s.url.text = "directory".toList ++ ('+' :: s.url.text) := rfl
    unfold SourceId.fromUrl
    rw [this, cut_prefix (by decide)]
    simp only
    rw [if_neg (by decide), if_neg (by decide), if_neg (by decide), if_neg (by decide)]

/-- Only the four kinds `git`, `registry`, `sparse` and `path` parse. -/
theorem C26_parsed_kinds {L : UrlLib} {t : Str} {s : SourceId} (h : SourceId.fromUrl L t = .ok s) :
    ∃ k rest, t = k ++ '+' :: rest ∧
      k ∈ ["git".toList, "registry".toList, "sparse".toList, "path".toList] := by
  unfold SourceId.fromUrl at h
  cases hc : cutC '+' t with
  | mk k rest =>
    rw [hc] at h
    cases rest with
    | none => cases h
    | some rest =>
      have ht := (cutC_eq hc).2
      refine ⟨k, rest, ht, ?_⟩
      simp only at h
      simp only [List.mem_cons, List.not_mem_nil, or_false]
      split at h
      · rename_i hk; exact Or.inl hk
      · split at h
        · rename_i hk; exact Or.inr (Or.inl hk)
        · split at h
          · rename_i hk; exact Or.inr (Or.inr (Or.inl hk))
          · split at h
            · rename_i hk; exact Or.inr (Or.inr (Or.inr hk))
            · cases h

/-! ## A concrete URL library, non-vacuity, and violations -/

/-- A toy `Url::parse` for bases: accepts visible ASCII texts starting with `https://`, unchanged. -/
def toyUrl : UrlLib where
  base b := if "https://".toList.isPrefixOf b &&
      b.all (fun c => decide (' ' < c) && !(c == '?') && !(c == '#')) then some b else none
  special _ := true

theorem toyUrl_lawful : UrlLib.Lawful toyUrl := by
  have key : ∀ b b', toyUrl.base b = some b' → b' = b ∧ "https://".toList.isPrefixOf b = true ∧
      ∀ c ∈ b, ' ' < c ∧ c ≠ '?' ∧ c ≠ '#' := by
    intro b b' h
    unfold toyUrl at h
    simp only at h
    split at h
    · rename_i hc
      rw [Bool.and_eq_true] at hc
      cases h
      refine ⟨rfl, hc.1, ?_⟩
      intro c hcm
      have := List.all_eq_true.mp hc.2 c hcm
      simp only [Bool.and_eq_true, decide_eq_true_eq, Bool.not_eq_true', beq_eq_false_iff_ne] at this
      exact ⟨this.1.1, this.1.2, this.2⟩
    · cases h
  constructor
  · intro b b' h
    obtain ⟨rfl, _⟩ := key b b' h
    exact h
  · intro b b' h
    obtain ⟨rfl, hpre, hc⟩ := key b b' h
    refine ⟨?_, ?_, ?_, ?_⟩
    · rintro rfl; exact absurd hpre (by decide)
    · intro c hcm hm
      obtain ⟨h1, h2, h3⟩ := hc c hcm
      have ht := not_tab_of_gt h1
      simp only [List.mem_cons, List.not_mem_nil, or_false] at hm
      rcases hm with h | h | h | h | h
      · exact h2 h
      · exact h3 h
      · exact ht.1 h
      · exact ht.2.1 h
      · exact ht.2.2 h
    · intro c hh; exact (hc c (List.mem_of_head? hh)).1
    · intro c hl; exact (hc c (List.mem_of_getLast? hl)).1

/-- A git source with a given branch and revision at `https://x/y`. -/
def gitBranch (b : String) (p : Option String) : SourceId :=
  { url := { base := "https://x/y".toList }, kind := .git (.branch b.toList), precise := p.map String.toList }

/-- Non-vacuity: a branch name full of special and non-ASCII characters survives the encoded form. -/
example : GitSource toyUrl (gitBranch "feat/ü&x#1+2%41 z" (some "abc123")) := by
  refine ⟨⟨_, rfl⟩, by decide +kernel, rfl, rfl, ?_, rfl⟩
  intro p hp
  cases hp
  decide +kernel

example : (gitBranch "feat/ü&x#1+2%41 z" (some "abc123")).asUrl true =
    "git+https://x/y?branch=feat%2F%C3%BC%26x%231%2B2%2541+z#abc123".toList := by decide +kernel

example : SourceId.fromUrl toyUrl "git+https://x/y?branch=dev#abc123".toList =
    .ok (gitBranch "dev" (some "abc123")) := by decide +kernel

/-- C26, violation for the unencoded form: branch names with `&`, `#`, `+`, `%41` or (without a revision) a
space at the end come back as another source. -/
theorem C26_display_violations :
    SourceId.fromUrl toyUrl ((gitBranch "a&b" none).asUrl false) = .ok (gitBranch "a" none) ∧
    SourceId.fromUrl toyUrl ((gitBranch "a#b" none).asUrl false) = .ok (gitBranch "a" (some "b")) ∧
    SourceId.fromUrl toyUrl ((gitBranch "a+b" none).asUrl false) = .ok (gitBranch "a b" none) ∧
    SourceId.fromUrl toyUrl ((gitBranch "%41" none).asUrl false) = .ok (gitBranch "A" none) ∧
    SourceId.fromUrl toyUrl ((gitBranch "a " none).asUrl false) = .ok (gitBranch "a" none) := by
  refine ⟨?_, ?_, ?_, ?_, ?_⟩ <;> decide +kernel

/-- C26: the constructor `for_registry` gives a source without a revision; reading back what it prints gives
one with the revision `locked`.  (The two compare equal, see C27.) -/
theorem C26_constructor_registry {L : UrlLib} (u : Url) (h : Url.parse L u.text = some u) (enc : Bool) :
    SourceId.fromUrl L (SourceId.asUrl enc { url := u, kind := .registry }) =
      .ok { url := u, kind := .registry, precise := some "locked".toList } :=
  fromUrl_registry h

end Verif.Props
