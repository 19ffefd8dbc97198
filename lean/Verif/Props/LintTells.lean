import Verif.Props.LintText
import Verif.Props.LinterExamples
import Verif.Props.ProjectLintExamples

/-!
# Different problems have different messages (C110)
-/

namespace Verif.Lint

open Verif.Adv Verif.Spec Verif.AdminLint Verif.Props

/-- The last seven characters, from the end. -/
def tail7 (s : Str) : Str := s.reverse.take 7

theorem tail7_append (x e : Str) (h : 7 ≤ e.length) : tail7 (x ++ e) = tail7 e := by
  unfold tail7
  rw [List.reverse_append, List.take_append_of_le_length (by simpa using h)]

theorem tail7_of {s x y e : Str} (hs : s = x ++ (y ++ e)) (h : 7 ≤ e.length) : tail7 s = tail7 e := by
  rw [hs, ← List.append_assoc, tail7_append _ _ h]

/-- How the message of a problem ends, if not with a quoted text. -/
def ending : Finding → Option Str
  | .mention _ => some (tail7 "avoid spam)".toList)
  | .unknownKey none _ => some (tail7 "` in toplevel".toList)
  | .unknownKey (some s) _ => some (tail7 ("` in [".toList ++ (s ++ "]".toList)))
  | .draftMismatch => some (tail7 "match file name".toList)
  | .otherId => some (tail7 "unknown advisory ID type".toList)
  | .yearMismatch => some (tail7 "not match date".toList)
  | .explicitCollection => some (tail7 "inferred by location".toList)
  | .insecureUrl _ => some (tail7 "https://".toList)
  | .yankedDeprecated => some (tail7 "field instead".toList)
  | .notTable => some (tail7 "expected table".toList)
  | .foreignFunction _ => some (tail7 "crate name".toList)
  | .emptyOs => some (tail7 "unknown OS".toList)
  | .unknownCategory _ | .unknownInformational _ | .unknownLicense _ | .unknownArch _ => none

/-- The beginning of a message that ends with a quoted text. -/
def opening : Finding → Str
  | .unknownCategory s => "invalid value `".toList ++ (s ++ "` for key `category` in [advisory]: unknown category ".toList)
  | .unknownInformational s => "invalid value `".toList ++
      (s ++ "` for key `informational` in [advisory]: unknown informational advisory type ".toList)
  | .unknownLicense s => "invalid value `".toList ++ (s ++ "` for key `license` in [advisory]: unknown license ".toList)
  | .unknownArch s => "invalid value `".toList ++ (s ++ "` for key `arch` in [affected]: unknown architecture ".toList)
  | _ => []

variable {W : Words} {n : Nat} {t : TomlTable} {md : Str}

private theorem mention_assoc (a b c d e : Str) : a ++ (b ++ (c ++ (d ++ e))) = (a ++ (b ++ (c ++ d))) ++ e := by
  simp only [List.append_assoc]

private theorem drop_middle (x v e e' : Str) (h : tail7 e = tail7 e') (hl : 7 ≤ e.length) : tail7 (x ++ (v ++ e)) = tail7 e' := by
  rw [← List.append_assoc, tail7_append _ _ hl, h]

private theorem quoted_case {x v e d : Str} (h : e.getLast? = some ' ') :
    x ++ (v ++ (e ++ d)) = (x ++ (v ++ e)) ++ d ∧ (x ++ (v ++ e)).getLast? = some ' ' := by
  refine ⟨by simp only [List.append_assoc], ?_⟩
  have : e ≠ [] := by rintro rfl; cases h
  rw [← List.append_assoc, List.getLast?_append_of_ne_nil _ this, h]

theorem says_ending {f : Finding} {s : Str} (h : Says W n t md f s) :
    (∃ e, ending f = some e ∧ tail7 s = e) ∨
      (ending f = none ∧ ∃ v, s = opening f ++ W.debug v ∧ (opening f).getLast? = some ' ') := by
  cases h
  case mention i user h =>
    refine .inl ⟨_, rfl, ?_⟩
    rw [mention_assoc]
    exact (tail7_append _ _ (by decide +kernel)).trans (by decide +kernel)
  case category s h => exact .inr ⟨rfl, s, quoted_case (by decide +kernel)⟩
  case informational s h => exact .inr ⟨rfl, s, quoted_case (by decide +kernel)⟩
  case license s h => exact .inr ⟨rfl, s, quoted_case (by decide +kernel)⟩
  case arch s h => exact .inr ⟨rfl, s, quoted_case (by decide +kernel)⟩
  case collection h => exact .inl ⟨_, rfl, by decide +kernel⟩
  case yanked h => exact .inl ⟨_, rfl, by decide +kernel⟩
  case notTable h => exact .inl ⟨_, rfl, by decide +kernel⟩
  case os h => exact .inl ⟨_, rfl, by decide +kernel⟩
  all_goals exact .inl ⟨_, rfl, drop_middle _ _ _ _ (by decide +kernel) (by decide +kernel)⟩

/-! ## Quoted texts -/

theorem quoted_end {x y p q : Str} (hp : Quoted p) (hq : Quoted q) (hx : x.getLast? = some ' ') (hy : y.getLast? = some ' ')
    (h : x ++ p = y ++ q) : x = y ∧ p = q := by
  -- it is enough that neither beginning is longer
  have aux : ∀ {x y p q : Str}, Quoted p → Quoted q → x.getLast? = some ' ' → x ++ p = y ++ q → y.length < x.length → False := by
    intro x y p q hp hq hx h hl
    obtain ⟨b, rfl, -⟩ := hp
    obtain ⟨c, rfl, hc⟩ := hq
    rw [List.append_eq_append_iff] at h
    rcases h with ⟨z, rfl, e⟩ | ⟨z, rfl, e⟩
    · simp at hl
    · have hz : z ≠ [] := by rintro rfl; simp at hl
      obtain ⟨z', d, rfl⟩ : ∃ z' d, z = z' ++ [d] := ⟨_, _, (List.dropLast_append_getLast hz).symm⟩
      have hd : d = ' ' := by simpa using hx
      subst hd
      cases z' with
      | nil => simp at e
      | cons w z' =>
        simp only [List.cons_append, List.cons.injEq, List.append_assoc, List.nil_append] at e
        obtain ⟨-, e⟩ := e
        -- the opening quote of the shorter end stands inside, after a blank
        have e' : c ++ ['"'] = (z' ++ [' ']) ++ '"' :: b ++ ['"'] := by simpa using e
        have := hc (z' ++ [' ']) b (List.append_cancel_right (by simpa using e'))
        simp at this
  rcases Nat.lt_trichotomy y.length x.length with hl | hl | hl
  · exact absurd hl fun hl => aux hp hq hx h hl
  · exact List.append_inj h hl.symm
  · exact absurd hl fun hl => aux hq hp hy h.symm hl

/-! ## Numbers -/

theorem digits_end {x y : Str} {a b : Nat} (hx : x.getLast? = some ' ') (hy : y.getLast? = some ' ')
    (h : x ++ showNat a = y ++ showNat b) : a = b := by
  have aux : ∀ {x y : Str} {a b : Nat}, x.getLast? = some ' ' → x ++ showNat a = y ++ showNat b → y.length < x.length → False := by
    intro x y a b hx h hl
    rw [List.append_eq_append_iff] at h
    rcases h with ⟨z, rfl, e⟩ | ⟨z, rfl, e⟩
    · simp at hl
    · have hz : z ≠ [] := by rintro rfl; simp at hl
      obtain ⟨z', d, rfl⟩ : ∃ z' d, z = z' ++ [d] := ⟨_, _, (List.dropLast_append_getLast hz).symm⟩
      have hd : d = ' ' := by simpa using hx
      have : d ∈ showNat b := by rw [e]; simp
      have := isDigit_of_mem_showNat this
      rw [hd] at this
      revert this; decide
  have hs : showNat a = showNat b := by
    rcases Nat.lt_trichotomy y.length x.length with hl | hl | hl
    · exact absurd hl fun hl => aux hx h hl
    · exact (List.append_inj h hl.symm).2
    · exact absurd hl fun hl => aux hy h.symm hl
  have h1 := parseUnsigned_showNat (b := a + b + 1) (n := a) (by omega)
  have h2 := parseUnsigned_showNat (b := a + b + 1) (n := b) (by omega)
  rw [hs, h2] at h1
  exact (Option.some.inj h1).symm

/-! ## The theorem -/

private theorem cancel {a x y e : Str} (h : a ++ (x ++ e) = a ++ (y ++ e)) : x = y :=
  List.append_cancel_right (List.append_cancel_left h)

private theorem unlike {x y a b e e' : Str} (h : x ++ (a ++ e) = y ++ (b ++ e')) (h1 : 7 ≤ e.length) (h2 : 7 ≤ e'.length)
    (hne : tail7 e ≠ tail7 e') : False := by
  have := congrArg tail7 h
  rw [← List.append_assoc, ← List.append_assoc, tail7_append _ _ h1, tail7_append _ _ h2] at this
  exact hne this

private theorem mention_cancel {a u u' b c : Str} {i j : Nat} (hb : b.getLast? = some ' ')
    (h : a ++ (u ++ (b ++ (showNat i ++ c))) = a ++ (u' ++ (b ++ (showNat j ++ c)))) : i = j := by
  have hne : b ≠ [] := by rintro rfl; cases hb
  have h' : (u ++ b) ++ showNat i = (u' ++ b) ++ showNat j := by
    have := List.append_cancel_left h
    apply List.append_cancel_right (bs := c)
    simpa only [List.append_assoc] using this
  exact digits_end (by rw [List.getLast?_append_of_ne_nil _ hne, hb]) (by rw [List.getLast?_append_of_ne_nil _ hne, hb]) h'

/-- The endings, in the order of `Shape`. -/
private def endings : List (Option Str) :=
  [ending (.mention 0), ending (.unknownKey none []), ending (.unknownKey (some "advisory".toList) []),
    ending (.unknownKey (some "versions".toList) []), ending (.unknownKey (some "affected".toList) []), ending (.insecureUrl []),
    ending (.foreignFunction []), ending .draftMismatch, ending .otherId, ending .yearMismatch, ending .explicitCollection,
    ending .yankedDeprecated, ending .notTable, ending .emptyOs]

/-- The problems with one ending, and their messages. -/
private def Shape (W : Words) (n : Nat) : Nat → Finding → Str → Prop
  | 0, f, s => ∃ i user, f = .mention i ∧ s = "malformed content in [markdown]: bare @".toList ++
      (user ++ (" in advisory on line ".toList ++ (showNat (n + 4 + i) ++ " (use explicit link to avoid spam)".toList)))
  | 1, f, s => ∃ k, f = .unknownKey none k ∧ s = "invalid key `".toList ++ (k ++ "` in toplevel".toList)
  | 2, f, s => ∃ k, f = .unknownKey (some "advisory".toList) k ∧ s = "invalid key `".toList ++ (k ++ "` in [advisory]".toList)
  | 3, f, s => ∃ k, f = .unknownKey (some "versions".toList) k ∧ s = "invalid key `".toList ++ (k ++ "` in [versions]".toList)
  | 4, f, s => ∃ k, f = .unknownKey (some "affected".toList) k ∧ s = "invalid key `".toList ++ (k ++ "` in [affected]".toList)
  | 5, f, s => ∃ u, f = .insecureUrl u ∧ s = "invalid value `".toList ++
      (W.toml (.str u) ++ "` for key `url` in [advisory]: URL must start with https://".toList)
  | 6, f, s => ∃ p v, f = .foreignFunction p ∧ FunctionPath.fromStr v = .ok p ∧ s = "invalid value `".toList ++
      (v ++ "` for key `functions` in [affected]: function path must start with crate name".toList)
  | 7, f, _ => f = .draftMismatch
  | 8, f, _ => f = .otherId
  | 9, f, _ => f = .yearMismatch
  | 10, f, _ => f = .explicitCollection
  | 11, f, _ => f = .yankedDeprecated
  | 12, f, _ => f = .notTable
  | 13, f, _ => f = .emptyOs
  | _, _, _ => False

private theorem says_shape {f : Finding} {s : Str} (h : Says W n t md f s) (he : ending f ≠ none) :
    Shape W n (endings.idxOf (ending f)) f s := by
  have at_ : ∀ c, endings.idxOf (ending f) = c → Shape W n c f s → Shape W n (endings.idxOf (ending f)) f s :=
    fun c e h => e ▸ h
  cases h
  case mention i user h => exact at_ 0 (by simp only [ending]; decide +kernel) ⟨_, _, rfl, rfl⟩
  case topKey k v h => exact at_ 1 (by simp only [ending]; decide +kernel) ⟨_, rfl, rfl⟩
  case advisoryKey k h => exact at_ 2 (by simp only [ending]; decide +kernel) ⟨_, rfl, rfl⟩
  case versionsKey k h => exact at_ 3 (by simp only [ending]; decide +kernel) ⟨_, rfl, rfl⟩
  case affectedKey k h => exact at_ 4 (by simp only [ending]; decide +kernel) ⟨_, rfl, rfl⟩
  case url u h => exact at_ 5 (by simp only [ending]; decide +kernel) ⟨_, rfl, rfl⟩
  case function p v h hk => exact at_ 6 (by simp only [ending]; decide +kernel) ⟨_, _, rfl, h, rfl⟩
  case draft => exact at_ 7 (by decide +kernel) rfl
  case otherId => exact at_ 8 (by decide +kernel) rfl
  case yearOfId => exact at_ 9 (by decide +kernel) rfl
  case yearOfDate => exact at_ 9 (by decide +kernel) rfl
  case collection => exact at_ 10 (by decide +kernel) rfl
  case yanked => exact at_ 11 (by decide +kernel) rfl
  case notTable => exact at_ 12 (by decide +kernel) rfl
  case os => exact at_ 13 (by decide +kernel) rfl
  all_goals exact absurd (by simp only [ending]) he

private theorem shape_tells (hW : WordsOk W) {c : Nat} {f g : Finding} {s : Str} (hf : Shape W n c f s) (hg : Shape W n c g s) :
    f = g := by
  unfold Shape at hf hg
  split at hf
  · obtain ⟨i, u, rfl, h⟩ := hf
    obtain ⟨j, u', rfl, h'⟩ := hg
    have := mention_cancel (by decide +kernel) (h.symm.trans h')
    rw [show i = j by omega]
  · obtain ⟨k, rfl, h⟩ := hf
    obtain ⟨k', rfl, h'⟩ := hg
    rw [cancel (h.symm.trans h')]
  · obtain ⟨k, rfl, h⟩ := hf
    obtain ⟨k', rfl, h'⟩ := hg
    rw [cancel (h.symm.trans h')]
  · obtain ⟨k, rfl, h⟩ := hf
    obtain ⟨k', rfl, h'⟩ := hg
    rw [cancel (h.symm.trans h')]
  · obtain ⟨k, rfl, h⟩ := hf
    obtain ⟨k', rfl, h'⟩ := hg
    rw [cancel (h.symm.trans h')]
  · obtain ⟨u, rfl, h⟩ := hf
    obtain ⟨u', rfl, h'⟩ := hg
    rw [hW.toml _ _ (cancel (h.symm.trans h'))]
  · obtain ⟨p, v, rfl, hp, h⟩ := hf
    obtain ⟨q, v', rfl, hq, h'⟩ := hg
    rw [cancel (h.symm.trans h'), hq] at hp
    rw [Outcome.ok.inj hp]
  all_goals first
    | exact hf.trans hg.symm
    | exact hf.elim

theorem tells_plain (hW : WordsOk W) {f g : Finding} {s : Str} (hf : Says W n t md f s) (hg : Says W n t md g s)
    (he : ending f ≠ none) (hee : ending f = ending g) : f = g := by
  have h1 := says_shape hf he
  rw [hee] at h1
  exact shape_tells hW h1 (says_shape hg (hee ▸ he))

theorem plain_head {f : Finding} {s e : Str} (hf : Says W n t md f s) (he : ending f = some e) : e.head? ≠ some '"' := by
  cases hf <;> first
    | (exfalso; simp only [ending, reduceCtorEq] at he; done)
    | (simp only [ending, Option.some.injEq] at he; subst he; decide +kernel)

theorem quoted_head {x p : Str} (h : Quoted p) : (tail7 (x ++ p)).head? = some '"' := by
  obtain ⟨b, rfl, -⟩ := h
  unfold tail7
  simp

theorem tells_quoted {f g : Finding} (he : ending f = none)
    (he' : ending g = none) (h : opening f = opening g) : f = g := by
  cases f
  case unknownKey o k => cases o <;> (simp only [ending, reduceCtorEq] at he)
  case unknownCategory s =>
    cases g
    case unknownKey o k => cases o <;> (simp only [ending, reduceCtorEq] at he')
    case unknownCategory s' => exact congrArg _ (cancel h)
    case unknownInformational s' => exact (unlike h (by decide +kernel) (by decide +kernel) (by decide +kernel)).elim
    case unknownLicense s' => exact (unlike h (by decide +kernel) (by decide +kernel) (by decide +kernel)).elim
    case unknownArch s' => exact (unlike h (by decide +kernel) (by decide +kernel) (by decide +kernel)).elim
    all_goals simp only [ending, reduceCtorEq] at he'
  case unknownInformational s =>
    cases g
    case unknownKey o k => cases o <;> (simp only [ending, reduceCtorEq] at he')
    case unknownCategory s' => exact (unlike h (by decide +kernel) (by decide +kernel) (by decide +kernel)).elim
    case unknownInformational s' => exact congrArg _ (cancel h)
    case unknownLicense s' => exact (unlike h (by decide +kernel) (by decide +kernel) (by decide +kernel)).elim
    case unknownArch s' => exact (unlike h (by decide +kernel) (by decide +kernel) (by decide +kernel)).elim
    all_goals simp only [ending, reduceCtorEq] at he'
  case unknownLicense s =>
    cases g
    case unknownKey o k => cases o <;> (simp only [ending, reduceCtorEq] at he')
    case unknownCategory s' => exact (unlike h (by decide +kernel) (by decide +kernel) (by decide +kernel)).elim
    case unknownInformational s' => exact (unlike h (by decide +kernel) (by decide +kernel) (by decide +kernel)).elim
    case unknownLicense s' => exact congrArg _ (cancel h)
    case unknownArch s' => exact (unlike h (by decide +kernel) (by decide +kernel) (by decide +kernel)).elim
    all_goals simp only [ending, reduceCtorEq] at he'
  case unknownArch s =>
    cases g
    case unknownKey o k => cases o <;> (simp only [ending, reduceCtorEq] at he')
    case unknownCategory s' => exact (unlike h (by decide +kernel) (by decide +kernel) (by decide +kernel)).elim
    case unknownInformational s' => exact (unlike h (by decide +kernel) (by decide +kernel) (by decide +kernel)).elim
    case unknownLicense s' => exact (unlike h (by decide +kernel) (by decide +kernel) (by decide +kernel)).elim
    case unknownArch s' => exact congrArg _ (cancel h)
    all_goals simp only [ending, reduceCtorEq] at he'
  all_goals simp only [ending, reduceCtorEq] at he

/-- **Property C110** (the words tell the problem): two different problems have different messages, whatever the values named. -/
theorem C110_tells (hW : WordsOk W) {f g : Finding} {s : Str} (hf : Says W n t md f s) (hg : Says W n t md g s) : f = g := by
  rcases says_ending hf with ⟨e, he, hs⟩ | ⟨he, v, hs, hl⟩ <;> rcases says_ending hg with ⟨e', he', hs'⟩ | ⟨he', v', hs', hl'⟩
  · exact tells_plain hW hf hg (by rw [he]; simp) (by rw [he, he', ← hs, hs'])
  · refine absurd ?_ (plain_head hf he)
    rw [← hs, hs', quoted_head (hW.quoted _)]
  · refine absurd ?_ (plain_head hg he')
    rw [← hs', hs, quoted_head (hW.quoted _)]
  · exact tells_quoted he he' (quoted_end (hW.quoted _) (hW.quoted _) hl hl' (hs.symm.trans hs')).1

theorem line_of {L : AdvLib} {W : Words} {s : Str} {draft : Option Bool} {a : AdvisoryFile} {fs : List Finding}
    {es : List LintError} (h : lintString L s draft = .ok (a, fs)) (he : lintErrors L W s draft = .ok es) {f : Finding}
    (hf : f ∈ fs) : ∃ n t md text, "  - ".toList ++ text ∈ errorLines es ∧ Says W n t md f text := by
  obtain ⟨parts, t, es', -, -, he', hm⟩ := (C110_words L W s draft).1 a fs h
  rw [he] at he'
  cases he'
  obtain ⟨i, hi, rfl⟩ := List.mem_iff_getElem.mp hf
  have hl := hm.length_eq
  obtain ⟨text, e, hs⟩ := (List.forall₂_iff_get.mp hm).2 i hi (by omega)
  refine ⟨_, t, parts.markdown, text, ?_, by simpa using hs⟩
  rw [← e]
  exact List.getElem_mem _

/-- **Property C110** (a wrong section): a deprecated `yanked` of `[advisory]` is always placed in `[metadata]`, a section that
no advisory has. -/
theorem C110_wrong_section (L : AdvLib) (W : Words) (s : Str) (draft : Option Bool) (a : AdvisoryFile) (fs : List Finding)
    (es : List LintError) (h : lintString L s draft = .ok (a, fs)) (he : lintErrors L W s draft = .ok es)
    (hf : .yankedDeprecated ∈ fs) :
    "  - malformed content in [metadata]: field `yanked` is deprecated, use `withdrawn` field instead".toList ∈
      errorLines es := by
  obtain ⟨n, t, md, text, hm, hs⟩ := line_of h he hf
  cases hs
  rw [show "  - malformed content in [metadata]: field `yanked` is deprecated, use `withdrawn` field instead".toList =
    "  - ".toList ++ "malformed content in [metadata]: field `yanked` is deprecated, use `withdrawn` field instead".toList by
    decide +kernel]
  exact hm

/-- **Property C110** (a wrong key): an unknown entry of `categories` is always placed under `category`, a key that is itself
refused as unknown. -/
theorem C110_wrong_key (L : AdvLib) (W : Words) (s : Str) (draft : Option Bool) (a : AdvisoryFile) (fs : List Finding)
    (es : List LintError) (h : lintString L s draft = .ok (a, fs)) (he : lintErrors L W s draft = .ok es) (c : Str)
    (hf : .unknownCategory c ∈ fs) :
    "  - invalid value `".toList ++ (c ++ ("` for key `category` in [advisory]: unknown category ".toList ++ W.debug c)) ∈
      errorLines es ∧
    ∀ year v, lintMetaKey a draft year "category".toList v = .ok (year, [.unknownKey (some "advisory".toList) "category".toList]) := by
  obtain ⟨n, t, md, text, hm, hs⟩ := line_of h he hf
  cases hs
  refine ⟨?_, fun year v => ?_⟩
  · rw [show "  - invalid value `".toList = "  - ".toList ++ "invalid value `".toList by decide +kernel, List.append_assoc]
    exact hm
  · unfold lintMetaKey
    iterate 9 rw [if_neg (by decide +kernel)]

/-! ## Examples -/

/-- Quotes and backslashes escaped. -/
def escaped : Str → Str
  | [] => []
  | c :: s => if c = '"' ∨ c = '\\' then '\\' :: c :: escaped s else c :: escaped s

theorem escaped_quotes (s u v : Str) (h : escaped s = u ++ '"' :: v) : u.getLast? = some '\\' := by
  induction s generalizing u with
  | nil => simp [escaped] at h
  | cons c s ih =>
    unfold escaped at h
    split at h
    · cases u with
      | nil => simp at h
      | cons a u =>
        simp only [List.cons_append, List.cons.injEq] at h
        obtain ⟨rfl, h⟩ := h
        cases u with
        | nil => rfl
        | cons b u =>
          simp only [List.cons_append, List.cons.injEq] at h
          have := ih u h.2
          have hu : u ≠ [] := by rintro rfl; cases this
          rw [List.getLast?_cons_cons, show b :: u = [b] ++ u from rfl, List.getLast?_append_of_ne_nil _ hu, this]
    · next hc =>
      cases u with
      | nil =>
        simp only [List.nil_append, List.cons.injEq] at h
        exact absurd (.inl h.1) hc
      | cons a u =>
        simp only [List.cons_append, List.cons.injEq] at h
        have := ih u h.2
        have hu : u ≠ [] := by rintro rfl; cases this
        rw [show a :: u = [a] ++ u from rfl, List.getLast?_append_of_ne_nil _ hu, this]

/-- A way of writing values. -/
def exWords : Words where
  debug s := '"' :: (escaped s ++ ['"'])
  toml
    | .str s => '"' :: (s ++ ['"'])
    | _ => "true".toList

/-- What is assumed of the way values are written can be met. -/
example : WordsOk exWords where
  quoted s := ⟨escaped s, rfl, fun u v h => escaped_quotes s u v h⟩
  toml u v h := by
    simp only [exWords, List.cons.injEq, true_and] at h
    exact List.append_cancel_right h

/-- The lines for the errors of a text. -/
def linesFor (L : AdvLib) (s : Str) (draft : Option Bool) : Outcome (List String) :=
  match lintErrors L exWords s draft with
  | .ok es => .ok ((errorLines es).map String.ofList)
  | .err => .err
  | .panic => .panic

/-- The hypotheses of the theorems are met: an advisory with five problems, and its messages. -/
example : findingsOf (lintString toyLib (docOf badFront) (some true)) =
      .ok [.draftMismatch, .yearMismatch, .unknownKey (some "advisory".toList) "severity".toList,
        .insecureUrl "http://example.com".toList, .foreignFunction ["other".toList, "decode".toList]] ∧
    linesFor toyLib (docOf badFront) (some true) = .ok
      ["  - invalid value `\"RUSTSEC-2020-0001\"` for key `id` in [advisory]: advisory ID draft status does not match file name",
        "  - invalid value `\"RUSTSEC-2020-0001\"` for key `id` in [advisory]: year in advisory ID does not match date",
        "  - invalid key `severity` in [advisory]",
        "  - invalid value `\"http://example.com\"` for key `url` in [advisory]: URL must start with https://",
        "  - invalid value `other::decode` for key `functions` in [affected]: function path must start with crate name"] := by
  decide +kernel

/-- The hypotheses of the theorems about the wrong section and the wrong key are met. -/
example :
    let L := ((exProject [] none []).lintEnv none true).adv
    findingsOf (lintString L (projectAdvisory ["yanked = true", "categories = [\"oops\"]"]) none) =
      .ok [.yankedDeprecated, .unknownCategory "oops".toList] ∧
    linesFor L (projectAdvisory ["yanked = true", "categories = [\"oops\"]"]) none = .ok
      ["  - malformed content in [metadata]: field `yanked` is deprecated, use `withdrawn` field instead",
        "  - invalid value `oops` for key `category` in [advisory]: unknown category \"oops\""] := by
  decide +kernel

end Verif.Lint
