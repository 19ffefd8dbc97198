import Verif.Spec.Sync
import Verif.Props.LinterGate
import Verif.Props.Id
import Verif.Props.SourceCmp

/-!
# C56: editing one file
-/

namespace Verif.Props

open Verif.Adv Verif.Db Verif.Assign Verif.Sync Verif.Spec Verif.Lock Std

/-! ### Sorting -/

theorem mem_insertBy {α : Type} {cmp : α → α → Ordering} (heq : ∀ a b, cmp a b = .eq ↔ a = b) (x y : α)
    (l : List α) : y ∈ insertBy cmp x l ↔ y = x ∨ y ∈ l := by
  induction l with
  | nil => simp [insertBy]
  | cons z r ih =>
    unfold insertBy
    cases h : cmp x z with
    | lt => simp
    | eq => rw [(heq x z).mp h]; simp
    | gt => simp only [List.mem_cons, ih]; tauto

theorem mem_sortDedup {α : Type} {cmp : α → α → Ordering} (heq : ∀ a b, cmp a b = .eq ↔ a = b) (y : α)
    (l : List α) : y ∈ sortDedup cmp l ↔ y ∈ l := by
  induction l with
  | nil => simp [sortDedup]
  | cons z r ih =>
    show y ∈ insertBy cmp z (sortDedup cmp r) ↔ _
    rw [mem_insertBy heq, ih, List.mem_cons]

theorem sortDedup_sorted {α : Type} (cmp : α → α → Ordering) [TransCmp cmp]
    (heq : ∀ a b, cmp a b = .eq ↔ a = b) (l : List α) :
    (sortDedup cmp l).Pairwise fun a b => cmp a b = .lt := by
  have ins : ∀ (x : α) (l : List α), (l.Pairwise fun a b => cmp a b = .lt) →
      (insertBy cmp x l).Pairwise fun a b => cmp a b = .lt := by
    intro x l
    induction l with
    | nil => intro _; simp [insertBy]
    | cons z r ih =>
      intro h
      rw [List.pairwise_cons] at h
      unfold insertBy
      cases hc : cmp x z with
      | lt =>
        refine List.pairwise_cons.mpr ⟨?_, List.pairwise_cons.mpr h⟩
        intro y hy
        rcases List.mem_cons.mp hy with rfl | hy
        · exact hc
        · exact TransCmp.lt_trans hc (h.1 y hy)
      | eq => exact List.pairwise_cons.mpr h
      | gt =>
        refine List.pairwise_cons.mpr ⟨?_, ih h.2⟩
        intro y hy
        rcases (mem_insertBy heq x y r).mp hy with rfl | hy
        · rw [OrientedCmp.eq_swap (cmp := cmp), hc]; rfl
        · exact h.1 y hy
  induction l with
  | nil => exact List.Pairwise.nil
  | cons x r ih => exact ins x _ ih

theorem strCmp_eq_iff (a b : Str) : strCmp a b = .eq ↔ a = b :=
  ⟨fun h => LawfulEqCmp.eq_of_compare (cmp := List.compareLex compare) h,
   fun h => h ▸ ReflCmp.compare_self (cmp := List.compareLex compare)⟩

theorem idCmp_eq_iff (a b : Id) : idCmp a b = .eq ↔ a = b := by
  obtain ⟨k, y, s⟩ := a
  obtain ⟨k', y', s'⟩ := b
  unfold idCmp
  rw [Ordering.then_eq_eq, Ordering.then_eq_eq, strCmp_eq_iff]
  have h1 : compare (kindRank k) (kindRank k') = .eq ↔ k = k' := by
    cases k <;> cases k' <;> decide
  have h2 : optNatCmp y y' = .eq ↔ y = y' := by
    cases y <;> cases y' <;> simp [optNatCmp]
  simp only [h1, h2, Id.mk.injEq, and_assoc]

/-! ### Lines -/

theorem splitC_append_gen (c : Char) (a t : Str) : splitC c (a ++ c :: t) = splitC c a ++ splitC c t := by
  induction a with
  | nil => simp [splitC]
  | cons x xs ih =>
    rw [List.cons_append, splitC, splitC]
    by_cases hx : x = c
    · rw [if_pos hx, if_pos hx, ih]; rfl
    · rw [if_neg hx, if_neg hx, ih]
      cases h : splitC c xs with
      | nil => exact absurd h (splitC_ne_nil _ _)
      | cons h r => rfl

theorem splitC_head_prefix (c : Char) (p b : Str) (hp : c ∉ p) : ∃ h r, splitC c (p ++ b) = (p ++ h) :: r := by
  induction p with
  | nil =>
    cases h : splitC c b with
    | nil => exact absurd h (splitC_ne_nil _ _)
    | cons h' r => exact ⟨h', r, by simp [h]⟩
  | cons x xs ih =>
    simp only [List.mem_cons, not_or] at hp
    obtain ⟨h, r, e⟩ := ih hp.2
    rw [List.cons_append, splitC, if_neg (Ne.symm hp.1), e]
    exact ⟨h, r, rfl⟩

theorem fence_line {a b : Str} : ∃ l ∈ splitC '\n' (a ++ closeFence ++ b), "```".toList <+: l := by
  have e : a ++ closeFence ++ b = a ++ '\n' :: ("```".toList ++ b) := by
    simp [closeFence]
  rw [e, splitC_append_gen]
  obtain ⟨h, r, e⟩ := splitC_head_prefix '\n' "```".toList b (by decide)
  exact ⟨_, List.mem_append_right _ (by rw [e]; exact List.mem_cons_self), h, rfl⟩

theorem line_split {s l : Str} (h : l ∈ splitC '\n' s) : (∃ b, s = l ++ b) ∨ ∃ a b, s = a ++ '\n' :: (l ++ b) := by
  have hj := joinC_splitC '\n' s
  generalize splitC '\n' s = ls at h hj
  induction ls generalizing s with
  | nil => cases h
  | cons x r ih =>
    by_cases hr : r = []
    · subst hr
      rw [List.mem_singleton] at h
      subst h
      exact .inl ⟨[], by simpa [joinC] using hj.symm⟩
    · rw [joinC_cons _ _ hr] at hj
      rcases List.mem_cons.mp h with rfl | h
      · exact .inl ⟨_, hj.symm⟩
      · rcases ih h rfl with ⟨b, e⟩ | ⟨a, b, e⟩
        · exact .inr ⟨x, b, by rw [← hj, e]⟩
        · exact .inr ⟨x ++ '\n' :: a, b, by rw [← hj, e]; simp⟩

/-- The front matter of a file that parses has no fence in it and is trimmed. -/
theorem front_plain {s : Str} {p : Parts} (h : Parts.parse s = .ok p)
    (hh : "[advisory]".toList <+: p.frontMatter) :
    (∀ l ∈ splitC '\n' p.frontMatter, ¬ "```".toList <+: l) ∧
    ∀ c, p.frontMatter.getLast? = some c → isWhite c = false := by
  obtain ⟨⟨raw, rest, hf, htr, -⟩, -⟩ := (C22_parse_iff s p).mp h
  obtain ⟨u, ⟨w, hw, -, -⟩, w', hw', -, hlast⟩ := htr
  refine ⟨?_, hlast⟩
  rintro l hl ⟨q, hq⟩
  rcases line_split hl with ⟨b, e⟩ | ⟨a, b, e⟩
  · obtain ⟨r, hr⟩ := hh
    rw [← hr, ← hq] at e
    simp at e
  · have e2 : s = (tomlFence ++ w ++ a) ++ closeFence ++ (q ++ b ++ w' ++ closeFence ++ rest) := by
      rw [hf.1, hw, hw', e, ← hq]
      simp [closeFence]
    have := hf.2 _ _ e2
    rw [hw, hw', e] at this
    simp at this

/-- A file put together from a plain front matter and the Markdown of another. -/
theorem parse_written {s body : Str} {p : Parts} (h : Parts.parse s = .ok p) (hb : PlainFront body) :
    Parts.parse ("```toml\n".toList ++ (body ++ ['\n']) ++ "```\n\n".toList ++ p.markdown) =
      .ok { p with frontMatter := body } := by
  obtain ⟨⟨raw, rest, hf, htr, hmd⟩, ht⟩ := (C22_parse_iff s p).mp h
  refine (C22_parse_iff _ _).mpr ⟨⟨'\n' :: body, "\n\n".toList ++ p.markdown, ⟨?_, ?_⟩, ?_, ?_⟩, ht⟩
  · simp [tomlFence, closeFence]
  · intro pre post e
    by_contra hlt
    push Not at hlt
    have e0 : "```toml\n".toList ++ (body ++ ['\n']) ++ "```\n\n".toList ++ p.markdown =
        (tomlFence ++ '\n' :: body) ++ ('\n' :: '`' :: '`' :: '`' :: '\n' :: '\n' :: p.markdown) := by
      simp [tomlFence]
    rw [e0] at e
    have e1 : pre ++ closeFence ++ post = pre ++ (closeFence ++ post) := by simp
    rw [e1] at e
    obtain ⟨mid, hm⟩ : ∃ mid, tomlFence ++ '\n' :: body = pre ++ mid :=
      (List.prefix_of_prefix_length_le ⟨_, e.symm⟩ ⟨_, rfl⟩ (by omega)).imp fun _ h => h.symm
    have hml : mid ≠ [] := by
      rintro rfl
      simp at hm
      rw [← hm] at hlt
      simp at hlt
    rw [hm, List.append_assoc] at e
    have e2 := List.append_cancel_left e
    -- the fence would begin inside the front matter
    rcases mid with _ | ⟨m0, _ | ⟨m1, _ | ⟨m2, _ | ⟨m3, mid⟩⟩⟩⟩
    · exact hml rfl
    · simp [closeFence] at e2
    · simp [closeFence] at e2
    · simp [closeFence] at e2
    · simp only [closeFence, List.cons_append] at e2
      have e3 : m0 = '\n' ∧ m1 = '`' ∧ m2 = '`' ∧ m3 = '`' := by simpa using ⟨(List.cons.inj e2).1, (List.cons.inj (List.cons.inj e2).2).1, (List.cons.inj (List.cons.inj (List.cons.inj e2).2).2).1, (List.cons.inj (List.cons.inj (List.cons.inj (List.cons.inj e2).2).2).2).1⟩
      obtain ⟨rfl, rfl, rfl, rfl⟩ := e3
      have e4 : splitC '\n' (tomlFence ++ '\n' :: body) = splitC '\n' (pre ++ '\n' :: ("```".toList ++ mid)) := by
        rw [hm]; rfl
      rw [splitC_append (by decide), splitC_append_gen] at e4
      obtain ⟨h, r, e5⟩ := splitC_head_prefix '\n' "```".toList mid (by decide)
      cases hs : splitC '\n' pre with
      | nil => exact splitC_ne_nil _ _ hs
      | cons x xs =>
        rw [hs, e5] at e4
        have e6 := (List.cons.inj e4).2
        refine hb.noFence ("```".toList ++ h) ?_ ⟨h, rfl⟩
        rw [e6]
        exact List.mem_append_right _ List.mem_cons_self
  · obtain ⟨r, hr⟩ := hb.header
    refine ⟨body, ⟨['\n'], rfl, by decide, ?_⟩, ⟨[], by simp, by simp, hb.trimmed⟩⟩
    intro c hc
    rw [← hr] at hc
    cases hc
    decide
  · obtain ⟨w, -, -, hh⟩ := hmd
    exact ⟨"\n\n".toList, rfl, by decide, hh⟩

/-! ### Decoding -/

theorem mapList_strs {ss : List Str} (h : ∀ s ∈ ss, ∃ i, Id.fromStr s = .ok i) :
    ∃ A : List Id, asStrings Id.fromStr (.arr (ss.map .str)) = .ok A ∧ A.map Id.string = ss ∧
      ∀ i ∈ A, Id.fromStr i.string = .ok i := by
  show ∃ A : List Id, Outcome.mapList (asString Id.fromStr) (ss.map .str) = .ok A ∧ _
  induction ss with
  | nil => exact ⟨[], rfl, rfl, by simp⟩
  | cons s ss ih =>
    obtain ⟨i, hi⟩ := h s List.mem_cons_self
    obtain ⟨A, hA, hm, hp⟩ := ih fun x hx => h x (List.mem_cons_of_mem _ hx)
    have hs := (C19_parsed_contents s i hi).1
    refine ⟨i :: A, ?_, ?_, ?_⟩
    · simp only [List.map_cons, Outcome.mapList, asString, hi, hA]
    · rw [List.map_cons, hm]; exact congrArg (· :: ss) hs
    · intro j hj
      rcases List.mem_cons.mp hj with rfl | hj
      · rw [show j.string = s from hs]; exact hi
      · exact hp j hj

theorem stringArray_ok {m : TomlTable} {k : String} {A : List Id}
    (h : defaulted m k [] (asStrings Id.fromStr) = .ok A) :
    stringArray m k = .ok (A.map Id.string) ∧ ∀ i ∈ A, Id.fromStr i.string = .ok i := by
  rcases defaulted_ok h with ⟨hn, rfl⟩ | ⟨v, hv, hf⟩
  · refine ⟨?_, by simp⟩
    unfold stringArray
    rw [hn]; rfl
  · unfold stringArray
    rw [hv]
    have key : ∀ (l : List Toml) (A : List Id), Outcome.mapList (asString Id.fromStr) l = .ok A →
        Outcome.mapList (asString (α := Str) .ok) l = .ok (A.map Id.string) ∧
        ∀ i ∈ A, Id.fromStr i.string = .ok i := by
      intro l
      induction l with
      | nil => intro A h; cases h; exact ⟨rfl, by simp⟩
      | cons x l ih =>
        intro A h
        unfold Outcome.mapList at h
        cases hx : asString Id.fromStr x with
        | err => rw [hx] at h; cases h
        | panic => rw [hx] at h; cases h
        | ok i =>
          rw [hx] at h
          cases hl : Outcome.mapList (asString Id.fromStr) l with
          | err => rw [hl] at h; cases h
          | panic => rw [hl] at h; cases h
          | ok B =>
            rw [hl] at h
            cases h
            obtain ⟨s, rfl, hs⟩ := asString_ok hx
            obtain ⟨h1, h2⟩ := ih B hl
            have hstr : i.string = s := (C19_parsed_contents s i hs).1
            refine ⟨?_, ?_⟩
            · simp only [Outcome.mapList, asString, h1, List.map_cons, hstr]
            · intro j hj
              rcases List.mem_cons.mp hj with rfl | hj
              · rw [hstr]; exact hs
              · exact h2 j hj
    cases v with
    | arr l =>
      obtain ⟨h1, h2⟩ := key l A hf
      refine ⟨?_, h2⟩
      simp only [asStrings, h1]
    | _ => cases hf

/-- Decoding the metadata depends on the values of the keys only; `aliases` and `related` are independent of
everything else. -/
theorem decode_edit {L : AdvLib} {m m' : TomlTable} {md : FileMetadata} {A R : List Id}
    (h : FileMetadata.decode L m = .ok md)
    (hk : ∀ k, k ≠ "aliases" → k ≠ "related" → TomlTable.get m' k = TomlTable.get m k)
    (hA : defaulted m' "aliases" [] (asStrings Id.fromStr) = .ok A)
    (hR : defaulted m' "related" [] (asStrings Id.fromStr) = .ok R) :
    FileMetadata.decode L m' = .ok { md with aliases := A, related := R } := by
  have hr : ∀ {α : Type} (k : String) (f : Toml → Outcome α), k ≠ "aliases" → k ≠ "related" →
      required m' k f = required m k f := by
    intro α k f h1 h2; unfold required; rw [hk k h1 h2]
  have hd : ∀ {α : Type} (k : String) (d : α) (f : Toml → Outcome α), k ≠ "aliases" → k ≠ "related" →
      defaulted m' k d f = defaulted m k d f := by
    intro α k d f h1 h2; unfold defaulted; rw [hk k h1 h2]
  unfold FileMetadata.decode at h ⊢
  obtain ⟨id, h1, h⟩ := bindOk h
  obtain ⟨package, h2, h⟩ := bindOk h
  obtain ⟨title, h3, h⟩ := bindOk h
  obtain ⟨description, h4, h⟩ := bindOk h
  obtain ⟨date, h5, h⟩ := bindOk h
  obtain ⟨aliases, h6, h⟩ := bindOk h
  obtain ⟨related, h7, h⟩ := bindOk h
  obtain ⟨collection, h8, h⟩ := bindOk h
  obtain ⟨categories, h9, h⟩ := bindOk h
  obtain ⟨keywords, h10, h⟩ := bindOk h
  obtain ⟨cvss, h11, h⟩ := bindOk h
  obtain ⟨informational, h12, h⟩ := bindOk h
  obtain ⟨references, h13, h⟩ := bindOk h
  obtain ⟨source, h14, h⟩ := bindOk h
  obtain ⟨url, h15, h⟩ := bindOk h
  obtain ⟨withdrawn, h16, h⟩ := bindOk h
  obtain ⟨license, h17, h⟩ := bindOk h
  obtain ⟨expectDeleted, h18, h⟩ := bindOk h
  cases h
  rw [hr "id" _ (by decide) (by decide), h1, Outcome.bind_ok,
    hr "package" _ (by decide) (by decide), h2, Outcome.bind_ok,
    hd "title" _ _ (by decide) (by decide), h3, Outcome.bind_ok,
    hd "description" _ _ (by decide) (by decide), h4, Outcome.bind_ok,
    hr "date" _ (by decide) (by decide), h5, Outcome.bind_ok, hA, Outcome.bind_ok, hR, Outcome.bind_ok,
    hd "collection" _ _ (by decide) (by decide), h8, Outcome.bind_ok,
    hd "categories" _ _ (by decide) (by decide), h9, Outcome.bind_ok,
    hd "keywords" _ _ (by decide) (by decide), h10, Outcome.bind_ok,
    hd "cvss" _ _ (by decide) (by decide), h11, Outcome.bind_ok,
    hd "informational" _ _ (by decide) (by decide), h12, Outcome.bind_ok,
    hd "references" _ _ (by decide) (by decide), h13, Outcome.bind_ok,
    hd "source" _ _ (by decide) (by decide), h14, Outcome.bind_ok,
    hd "url" _ _ (by decide) (by decide), h15, Outcome.bind_ok,
    hd "withdrawn" _ _ (by decide) (by decide), h16, Outcome.bind_ok,
    hd "license" _ _ (by decide) (by decide), h17, Outcome.bind_ok,
    hd "expect-deleted" _ _ (by decide) (by decide), h18, Outcome.bind_ok]

/-- The decoding of the arrays, from the decoding of the metadata. -/
theorem decode_arrays {L : AdvLib} {m : TomlTable} {md : FileMetadata} (h : FileMetadata.decode L m = .ok md) :
    defaulted m "aliases" [] (asStrings Id.fromStr) = .ok md.aliases ∧
    defaulted m "related" [] (asStrings Id.fromStr) = .ok md.related := by
  unfold FileMetadata.decode at h
  obtain ⟨id, h1, h⟩ := bindOk h
  obtain ⟨package, h2, h⟩ := bindOk h
  obtain ⟨title, h3, h⟩ := bindOk h
  obtain ⟨description, h4, h⟩ := bindOk h
  obtain ⟨date, h5, h⟩ := bindOk h
  obtain ⟨aliases, h6, h⟩ := bindOk h
  obtain ⟨related, h7, h⟩ := bindOk h
  obtain ⟨collection, h8, h⟩ := bindOk h
  obtain ⟨categories, h9, h⟩ := bindOk h
  obtain ⟨keywords, h10, h⟩ := bindOk h
  obtain ⟨cvss, h11, h⟩ := bindOk h
  obtain ⟨informational, h12, h⟩ := bindOk h
  obtain ⟨references, h13, h⟩ := bindOk h
  obtain ⟨source, h14, h⟩ := bindOk h
  obtain ⟨url, h15, h⟩ := bindOk h
  obtain ⟨withdrawn, h16, h⟩ := bindOk h
  obtain ⟨license, h17, h⟩ := bindOk h
  obtain ⟨expectDeleted, h18, h⟩ := bindOk h
  cases h
  exact ⟨h6, h7⟩

/-- The array after the edit decodes to the sorted list. -/
theorem array_decoded {m m' : TomlTable} {k : String} {A : List Id} {S : List Str}
    (hk : TomlTable.get m' k = arrayAfter (TomlTable.get m k) (sortDedup strCmp S))
    (hA : defaulted m k [] (asStrings Id.fromStr) = .ok A)
    (hS : ∀ s ∈ S, ∃ i, Id.fromStr s = .ok i) (hsub : ∀ i ∈ A, i.string ∈ S) :
    ∃ B, defaulted m' k [] (asStrings Id.fromStr) = .ok B ∧ SortedIds B ∧
      (∀ i, i ∈ B ↔ Id.fromStr i.string = .ok i ∧ i.string ∈ S) := by
  by_cases he : sortDedup strCmp S = []
  · have hnil : S = [] := by
      rcases S with _ | ⟨x, S⟩
      · rfl
      · have := (mem_sortDedup strCmp_eq_iff x (x :: S)).mpr List.mem_cons_self
        rw [he] at this; cases this
    have hAn : A = [] := by
      rcases A with _ | ⟨i, A⟩
      · rfl
      · have := hsub i List.mem_cons_self
        rw [hnil] at this; cases this
    refine ⟨[], ?_, List.Pairwise.nil, by simp [hnil]⟩
    rw [arrayAfter, if_pos he] at hk
    unfold defaulted at hA ⊢
    rw [hk, hA, hAn]
  · obtain ⟨B, hB, hm, hp⟩ := mapList_strs (ss := sortDedup strCmp S) fun s hs =>
      hS s ((mem_sortDedup strCmp_eq_iff s S).mp hs)
    refine ⟨B, ?_, ?_, ?_⟩
    · rw [arrayAfter, if_neg he] at hk
      unfold defaulted
      rw [hk]; exact hB
    · unfold SortedIds
      rw [hm]
      exact sortDedup_sorted strCmp strCmp_eq_iff S
    · intro i
      constructor
      · intro hi
        refine ⟨hp i hi, (mem_sortDedup strCmp_eq_iff _ S).mp ?_⟩
        rw [← hm]; exact List.mem_map_of_mem hi
      · rintro ⟨h1, h2⟩
        have := (mem_sortDedup strCmp_eq_iff _ S).mpr h2
        rw [← hm] at this
        obtain ⟨j, hj, e⟩ := List.mem_map.mp this
        have h3 := hp j hj
        rw [e, h1] at h3
        cases h3
        exact hj

/-- Editing one file. -/
theorem updateText_ok {L : SyncLib} (law : EditLaw L) {text : Str} {f : AdvisoryFile}
    (hE : EditableFile L.adv text f) {missing : List Id} (hm : ∀ i ∈ missing, PlainId i) :
    ∃ text' f', updateText L text missing = .ok text' ∧ EditableFile L.adv text' f' ∧ SameButAliases f f' ∧
      SortedIds f'.metadata.aliases ∧ SortedIds f'.metadata.related ∧
      (∀ i, i ∈ f'.metadata.aliases ↔ i ∈ f.metadata.aliases ∨ i ∈ missing) ∧
      (∃ p p', Parts.parse text = .ok p ∧ Parts.parse text' = .ok p' ∧ p'.markdown = p.markdown) := by
  obtain ⟨parts, t, a0, hp, ht, hd, hti, hde, rfl⟩ := fromStr_ok hE.parses
  obtain ⟨hrest, hhead⟩ := hE.header parts hp
  have hw : withHeader parts.frontMatter = parts.frontMatter := withHeader_header hhead.symm
  rw [hw] at ht
  have hplain : PlainFront parts.frontMatter :=
    ⟨⟨_, hhead⟩, (front_plain hp ⟨_, hhead⟩).1, (front_plain hp ⟨_, hhead⟩).2, hE.noComment parts hp⟩
  have hd0 := hd
  unfold AdvisoryFile.decode at hd
  obtain ⟨md, hd1, hd⟩ := bindOk hd
  obtain ⟨aff, hd2, hd⟩ := bindOk hd
  obtain ⟨vs, hd3, hd⟩ := bindOk hd
  cases hd
  obtain ⟨v, hv, hdm⟩ := required_ok hd1
  cases v with
  | table m =>
    obtain ⟨hal, hrel⟩ := decode_arrays hdm
    obtain ⟨hsa, hpa⟩ := stringArray_ok hal
    obtain ⟨hsr, hpr⟩ := stringArray_ok hrel
    have hmp : ∀ s ∈ md.aliases.map Id.string ++ missing.map Id.display, ∃ i, Id.fromStr s = .ok i := by
      intro s hs
      rcases List.mem_append.mp hs with hs | hs
      · obtain ⟨i, hi, rfl⟩ := List.mem_map.mp hs
        exact ⟨i, hpa i hi⟩
      · obtain ⟨i, hi, rfl⟩ := List.mem_map.mp hs
        exact ⟨i, (hm i hi).1⟩
    have hrp : ∀ s ∈ md.related.map Id.string, ∃ i, Id.fromStr s = .ok i := by
      intro s hs
      obtain ⟨i, hi, rfl⟩ := List.mem_map.mp hs
      exact ⟨i, hpr i hi⟩
    have hline : ∀ s ∈ sortDedup strCmp (md.aliases.map Id.string ++ missing.map Id.display) ++
        sortDedup strCmp (md.related.map Id.string), '\n' ∉ s := by
      intro s hs
      rw [List.mem_append, mem_sortDedup strCmp_eq_iff, mem_sortDedup strCmp_eq_iff, List.mem_append] at hs
      rcases hs with (hs | hs) | hs
      · obtain ⟨i, hi, rfl⟩ := List.mem_map.mp hs
        exact hE.oneLine i (List.mem_append_left _ hi)
      · obtain ⟨i, hi, rfl⟩ := List.mem_map.mp hs
        exact (hm i hi).2
      · obtain ⟨i, hi, rfl⟩ := List.mem_map.mp hs
        exact hE.oneLine i (List.mem_append_right _ hi)
    obtain ⟨body, t', m', hedit, hbody, ht', hadv, hother, hkeys, hka, hkr⟩ :=
      law parts.frontMatter t m _ _ hplain ht hv hline
    obtain ⟨A, hA, hAs, hAm⟩ := array_decoded hka hal hmp
      (fun i hi => List.mem_append_left _ (List.mem_map_of_mem hi))
    obtain ⟨R, hR, hRs, hRm⟩ := array_decoded hkr hrel hrp (fun i hi => List.mem_map_of_mem hi)
    have hdec := decode_edit hdm hkeys hA hR
    have hpw := parse_written hp hbody
    have hAiff : ∀ i, i ∈ A ↔ i ∈ md.aliases ∨ i ∈ missing := by
      intro i
      rw [hAm]
      constructor
      · rintro ⟨h1, h2⟩
        rcases List.mem_append.mp h2 with h2 | h2
        · obtain ⟨j, hj, e⟩ := List.mem_map.mp h2
          have := hpa j hj
          rw [e, h1] at this
          cases this
          exact .inl hj
        · obtain ⟨j, hj, e⟩ := List.mem_map.mp h2
          have := (hm j hj).1
          rw [show j.string = i.string from e, h1] at this
          cases this
          exact .inr hj
      · rintro (h | h)
        · exact ⟨hpa i h, List.mem_append_left _ (List.mem_map_of_mem h)⟩
        · exact ⟨(hm i h).1, List.mem_append_right _ (List.mem_map.mpr ⟨i, h, rfl⟩)⟩
    have hRiff : ∀ i, i ∈ R ↔ i ∈ md.related := by
      intro i
      rw [hRm]
      constructor
      · rintro ⟨h1, h2⟩
        obtain ⟨j, hj, e⟩ := List.mem_map.mp h2
        have := hpr j hj
        rw [e, h1] at this
        cases this
        exact hj
      · intro h
        exact ⟨hpr i h, List.mem_map_of_mem h⟩
    refine ⟨_, { metadata := { { md with aliases := A, related := R } with title := parts.title, description := parts.description }, affected := aff, versions := vs }, ?_, ⟨?_, ?_, ?_, ?_⟩, ⟨rfl, hRiff⟩, hAs, hRs, hAiff, parts, _, hp, hpw, rfl⟩
    · unfold updateText
      rw [hp]
      simp only [ht, hv, hsa, hsr, Outcome.bind_ok]
      rw [hedit]
    · obtain ⟨br, hbr⟩ := hbody.header
      unfold AdvisoryFile.fromStr
      rw [hpw, Outcome.bind_ok]
      simp only [withHeader_header hbr.symm, ht', ofOption, Outcome.bind_ok]
      have : AdvisoryFile.decode L.adv t' = .ok { metadata := { md with aliases := A, related := R }, affected := aff, versions := vs } := by
        unfold AdvisoryFile.decode
        have e1 : required t' "advisory" (decodeMetadata L.adv) = .ok { md with aliases := A, related := R } := by
          unfold required; rw [hadv]; exact hdec
        have e2 : defaulted t' "affected" none (fun v => Cvss.Outcome.map some (decodeAffected L.adv v)) = .ok aff := by
          unfold defaulted at hd2 ⊢; rw [hother _ (by decide)]; exact hd2
        have e3 : required t' "versions" (decodeVersions L.adv) = .ok vs := by
          unfold required at hd3 ⊢; rw [hother _ (by decide)]; exact hd3
        rw [e1, Outcome.bind_ok, e2, Outcome.bind_ok, e3, Outcome.bind_ok]
      rw [this, Outcome.bind_ok]
      simp only at hti hde
      simp only [hti, hde]
      rfl
    · intro q hq
      rw [hpw] at hq; cases hq
      exact hbody.header
    · intro q hq
      rw [hpw] at hq; cases hq
      exact hbody.noComment
    · intro i hi
      rcases List.mem_append.mp hi with hi | hi
      · rcases (hAiff i).mp hi with h | h
        · exact hE.oneLine i (List.mem_append_left _ h)
        · exact (hm i h).2
      · exact hE.oneLine i (List.mem_append_right _ ((hRiff i).mp hi))
  | _ => cases hdm

end Verif.Props
