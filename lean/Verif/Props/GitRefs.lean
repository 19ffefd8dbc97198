import Verif.Spec.GitRefs
import Mathlib.Data.List.Basic

/-!
# C74: references and `FETCH_HEAD` after a fetch
-/

namespace Verif.Props

open Verif.Refs Verif.Spec

/-! ## Hexadecimal -/

theorem hexByte_reads (b : UInt8) : ∃ x y c d, hexByte b = [c, d] ∧ hexValue c = some x ∧ hexValue d = some y ∧
    UInt8.ofNat (16 * x + y) = b := by
  revert b
  have h : ∀ n : Fin 256, ∃ x : Fin 16, ∃ y : Fin 16, (match hexByte (UInt8.ofNat n.val) with
      | [c, d] => decide (hexValue c = some x.val) && decide (hexValue d = some y.val) | _ => false) = true ∧
      UInt8.ofNat (16 * x.val + y.val) = UInt8.ofNat n.val := by
    intro n
    refine ⟨⟨n.val / 16, by omega⟩, ⟨n.val % 16, by omega⟩, ?_, ?_⟩
    · revert n; decide +kernel
    · congr 1; simp only; omega
  intro b
  obtain ⟨x, y, h1, h2⟩ := h ⟨b.toNat, b.toNat_lt⟩
  have hb : UInt8.ofNat b.toNat = b := UInt8.ofNat_toNat
  rw [hb] at h1 h2
  split at h1
  · rename_i c d hcd
    rw [Bool.and_eq_true, decide_eq_true_eq, decide_eq_true_eq] at h1
    exact ⟨x, y, c, d, hcd, h1.1, h1.2, h2⟩
  · cases h1

/-- **C74, hexadecimal.**  The text of an object ID has two digits for each byte and reads back as the ID; so different IDs
have different texts. -/
theorem C74_hex (bytes : List UInt8) :
    readHex (encodeHex bytes) = some bytes ∧ (encodeHex bytes).length = 2 * bytes.length := by
  induction bytes with
  | nil => exact ⟨rfl, rfl⟩
  | cons b bytes ih =>
    obtain ⟨x, y, c, d, h1, h2, h3, h4⟩ := hexByte_reads b
    have he : encodeHex (b :: bytes) = c :: d :: encodeHex bytes := by
      unfold encodeHex; rw [List.flatMap_cons, h1]; rfl
    rw [he]
    refine ⟨?_, ?_⟩
    · show (match hexValue c, hexValue d, readHex (encodeHex bytes) with
        | some x, some y, some bytes => some (UInt8.ofNat (16 * x + y) :: bytes)
        | _, _, _ => none) = _
      rw [h2, h3, ih.1, ← h4]
    · simp only [List.length_cons, ih.2]; omega

/-! ## `FETCH_HEAD` -/

theorem remoteHead_iff (mappings : List Mapping) (branch : Str) (oid : Oid) :
    remoteHead mappings = some (branch, oid) ↔ Announces mappings branch oid := by
  unfold remoteHead Announces
  induction mappings with
  | nil => simp
  | cons m ms ih =>
    rw [List.findSome?_cons]
    by_cases hm : ∃ b o, m = .symbolic "HEAD".toList b o
    · obtain ⟨b, o, rfl⟩ := hm
      have hh : (Mapping.symbolic "HEAD".toList b o).head = some (b, o) := by unfold Mapping.head; exact if_pos rfl
      rw [hh]
      simp only [Option.some.injEq, Prod.mk.injEq]
      constructor
      · rintro ⟨rfl, rfl⟩
        exact ⟨[], ms, rfl, fun _ _ h => by cases h⟩
      · rintro ⟨before, after, h1, h2⟩
        cases before with
        | nil =>
          rw [List.nil_append, List.cons.injEq, Mapping.symbolic.injEq] at h1
          exact ⟨h1.1.2.1, h1.1.2.2⟩
        | cons x before =>
          rw [List.cons_append, List.cons.injEq] at h1
          exact absurd (h1.1 ▸ List.mem_cons_self) (h2 b o)
    · have hf : m.head = none := by
        cases m with
        | symbolic n t o =>
          unfold Mapping.head
          simp only
          rw [if_neg]
          rintro rfl
          exact hm ⟨t, o, rfl⟩
        | otherRef n => rfl
        | objectId => rfl
      rw [hf]
      simp only
      rw [ih]
      constructor
      · rintro ⟨before, after, h1, h2⟩
        refine ⟨m :: before, after, by rw [h1]; rfl, ?_⟩
        intro b o h
        rcases List.mem_cons.mp h with h | h
        · exact hm ⟨b, o, h.symm⟩
        · exact h2 b o h
      · rintro ⟨before, after, h1, h2⟩
        cases before with
        | nil =>
          rw [List.nil_append, List.cons.injEq] at h1
          exact absurd ⟨branch, oid, h1.1⟩ hm
        | cons x before =>
          rw [List.cons_append, List.cons.injEq] at h1
          exact ⟨before, after, h1.2, fun b o h => h2 b o (.tail _ h)⟩

theorem stripPrefix_iff (p : String) (s r : Str) : stripPrefix p s = some r ↔ s = p.toList ++ r := by
  unfold stripPrefix startsWith
  by_cases h : p.toList.isPrefixOf s = true
  · rw [if_pos h]
    obtain ⟨t, rfl⟩ := List.isPrefixOf_iff_prefix.mp h
    rw [List.drop_left, Option.some.injEq]
    exact ⟨fun e => by rw [e], fun e => List.append_cancel_left e⟩
  · rw [if_neg h]
    refine iff_of_false nofun ?_
    rintro rfl
    exact h (List.isPrefixOf_iff_prefix.mpr (List.prefix_append _ _))

theorem theRefSpec_asks : [theRefSpec].any (RefSpec.asksForHead "origin".toList) = true := by decide +kernel

/-- **C74, FETCH_HEAD.**  It is written exactly if the remote announces its `HEAD` as a symbolic reference to a SHA-1 commit;
it then names that commit, and its text is as git writes it. -/
theorem C74_fetch_head (mappings : List Mapping) (url : Str) :
    (∀ oid text, fetchHeadOf mappings url (some "origin".toList) [theRefSpec] = .ok (oid, text) →
      ∃ branch, Announces mappings branch (.sha1 oid) ∧ NamesCommit oid url branch text) ∧
    ((∃ r, fetchHeadOf mappings url (some "origin".toList) [theRefSpec] = .ok r) ↔
      ∃ branch oid, Announces mappings branch (.sha1 oid)) ∧
    fetchHeadOf mappings url (some "origin".toList) [theRefSpec] ≠ .panic := by
  have hne : ∀ bytes branch, (fetchHeadText (encodeHex bytes) url "origin".toList branch [theRefSpec]).isEmpty = false := by
    intro bytes branch
    unfold fetchHeadText
    rw [if_pos theRefSpec_asks]
    simp
  cases hr : remoteHead mappings with
  | none =>
    have he : fetchHeadOf mappings url (some "origin".toList) [theRefSpec] = .err := by
      unfold fetchHeadOf; rw [hr]
    rw [he]
    refine ⟨nofun, iff_of_false (by rintro ⟨r, h⟩; cases h) ?_, nofun⟩
    rintro ⟨branch, oid, h⟩
    rw [(remoteHead_iff _ _ _).mpr h] at hr; cases hr
  | some x =>
    obtain ⟨branch, oid⟩ := x
    cases oid with
    | other =>
      have he : fetchHeadOf mappings url (some "origin".toList) [theRefSpec] = .err := by
        unfold fetchHeadOf; rw [hr]
      rw [he]
      refine ⟨nofun, iff_of_false (by rintro ⟨r, h⟩; cases h) ?_, nofun⟩
      rintro ⟨branch', oid, h⟩
      rw [(remoteHead_iff _ _ _).mpr h] at hr; cases hr
    | sha1 bytes =>
      have he : fetchHeadOf mappings url (some "origin".toList) [theRefSpec] =
          .ok (bytes, fetchHeadText (encodeHex bytes) url "origin".toList branch [theRefSpec]) := by
        unfold fetchHeadOf
        rw [hr]
        simp only [Option.getD_some]
        rw [hne, if_neg (by simp)]
      rw [he]
      refine ⟨?_, iff_of_true ⟨_, rfl⟩ ⟨branch, bytes, (remoteHead_iff _ _ _).mp hr⟩, nofun⟩
      intro oid text h
      rw [Outcome.ok.injEq, Prod.mk.injEq] at h
      obtain ⟨rfl, rfl⟩ := h
      refine ⟨branch, (remoteHead_iff _ _ _).mp hr, encodeHex bytes, (C74_hex bytes).1, (C74_hex bytes).2, ?_, ?_⟩
      · intro hb
        unfold fetchHeadText
        rw [if_pos theRefSpec_asks]
        cases hs : stripPrefix "refs/heads/" branch with
        | none => simp only [List.append_nil]
        | some b => exact absurd ((stripPrefix_iff _ _ _).mp hs) (hb b)
      · intro b hb
        unfold fetchHeadText
        rw [if_pos theRefSpec_asks, (stripPrefix_iff _ _ _).mpr hb]

/-! ## `HEAD` -/

/-- The references, one changed to an object. -/
def pointed (refs : Str → Option Target) (last : Str) (oid : List UInt8) : Str → Option Target :=
  fun n => if n = last then some (.object oid) else refs n

theorem follow_way (refs : Str → Option Target) (n : Nat) (name last : Str) (h : follow refs n name = some last) :
    OnWay refs name last ∧ ∀ next, refs last ≠ some (.symbolic next) := by
  induction n generalizing name with
  | zero => cases h
  | succ n ih =>
    unfold follow at h
    split at h
    · rename_i next hn
      obtain ⟨h1, h2⟩ := ih next h
      exact ⟨.further _ _ _ hn h1, h2⟩
    · rename_i hn
      rw [Option.some.injEq] at h
      subst h
      exact ⟨.here _, hn⟩

theorem pointed_resolves (refs : Str → Option Target) (name last : Str) (oid : List UInt8) (h : OnWay refs name last)
    (hl : ∀ next, refs last ≠ some (.symbolic next)) : Resolves (pointed refs last oid) name oid := by
  induction h with
  | here name => exact .direct _ _ (if_pos rfl)
  | further name next m hn _ ih =>
    refine .through _ next _ ?_ (ih hl)
    unfold pointed
    rw [if_neg, hn]
    rintro rfl
    exact hl _ hn

theorem resolves_unique (refs : Str → Option Target) (name : Str) (a b : List UInt8) (ha : Resolves refs name a)
    (hb : Resolves refs name b) : a = b := by
  induction ha with
  | direct name oid h =>
    cases hb with
    | direct _ _ h' => rw [h] at h'; cases h'; rfl
    | through _ next _ h' _ => rw [h] at h'; cases h'
  | through name next oid h _ ih =>
    cases hb with
    | direct _ _ h' => rw [h] at h'; cases h'
    | through _ next' _ h' hb' => rw [h] at h'; cases h'; exact ih hb'

theorem resolves_same (refs refs' : Str → Option Target) (name : Str) (a : List UInt8) (ha : Resolves refs name a)
    (hw : ∀ m, OnWay refs name m → refs' m = refs m) : Resolves refs' name a := by
  induction ha with
  | direct name oid h => exact .direct _ _ ((hw _ (.here _)).trans h)
  | through name next oid h _ ih =>
    exact .through _ next _ ((hw _ (.here _)).trans h) (ih fun m hm => hw m (.further _ _ _ h hm))

theorem headEdit_way (refs : Str → Option Target) (name : Str) (must : Bool) (h : headEdit refs = .ok (name, must))
    (last : Str) (hl : OnWay refs name last) : OnWay refs "HEAD".toList last := by
  unfold headEdit at h
  split at h
  · cases h
  · cases h; exact hl
  · rename_i branch hb
    split at h
    · rename_i n hn
      cases h
      exact .further _ _ _ hb (.further _ _ _ hn hl)
    · cases h; exact hl
    · cases h; exact hl

theorem headEdit_no_panic (refs : Str → Option Target) : headEdit refs ≠ .panic := by
  unfold headEdit
  split
  · nofun
  · nofun
  · split <;> nofun

theorem editRef_spec (limit : Nat) (refs refs' : Str → Option Target) (name : Str) (must : Bool) (oid : List UInt8)
    (h : editRef limit refs name must oid = some refs') :
    ∃ last, OnWay refs name last ∧ (∀ next, refs last ≠ some (.symbolic next)) ∧ refs' = pointed refs last oid := by
  unfold editRef at h
  split at h
  · cases h
  · rename_i last hf
    split at h
    · cases h
    · cases h
      obtain ⟨h1, h2⟩ := follow_way _ _ _ _ hf
      exact ⟨last, h1, h2, rfl⟩

/-- Everything `performFetch` did when it ended well. -/
theorem performFetch_ok (W : RefWorld) (d d' : GitDir) (h : (performFetch W d).2 = .ok d') :
    ∃ url refs mappings oid text last, W.origin = some url ∧ W.receive d.refs = some (refs, mappings) ∧
      fetchHeadOf mappings url (some "origin".toList) [theRefSpec] = .ok (oid, text) ∧ W.writable = true ∧
      OnWay refs "HEAD".toList last ∧ (∀ next, refs last ≠ some (.symbolic next)) ∧
      d' = ⟨pointed refs last oid, some text⟩ := by
  unfold performFetch at h
  cases ho : W.origin with
  | none => rw [ho] at h; cases h
  | some url =>
    rw [ho] at h
    cases hr : W.receive d.refs with
    | none => simp only [hr] at h; cases h
    | some x =>
      obtain ⟨refs, mappings⟩ := x
      simp only [hr] at h
      cases hf : fetchHeadOf mappings url (some "origin".toList) [theRefSpec] with
      | err => simp only [hf] at h; cases h
      | panic => simp only [hf] at h; cases h
      | ok r =>
        obtain ⟨oid, text⟩ := r
        simp only [hf] at h
        cases hw : W.writable with
        | false => simp only [hw, Bool.not_false, if_true] at h; cases h
        | true =>
          simp only [hw, Bool.not_true, Bool.false_eq_true, if_false] at h
          cases he : headEdit refs with
          | err => simp only [he] at h; cases h
          | panic => simp only [he] at h; cases h
          | ok r =>
            obtain ⟨name, must⟩ := r
            simp only [he] at h
            cases hd : editRef W.limit refs name must oid with
            | none => simp only [hd] at h; cases h
            | some refs' =>
              simp only [hd] at h
              cases h
              obtain ⟨last, h1, h2, rfl⟩ := editRef_spec _ _ _ _ _ _ hd
              exact ⟨url, refs, mappings, oid, text, last, rfl, rfl, hf, rfl, headEdit_way _ _ _ he _ h1, h2, rfl⟩

/-- **C74, HEAD.**  After a successful fetch `HEAD` stands for the commit the remote's `HEAD` was announced with, and
`FETCH_HEAD` names that same commit.  Only one reference was changed beyond what `gix`'s fetch itself changed: the end of
`HEAD`'s chain; so a `HEAD` that names a branch still does. -/
theorem C74_head (W : RefWorld) (d d' : GitDir) (h : (performFetch W d).2 = .ok d') :
    ∃ url refs mappings branch oid, W.origin = some url ∧ W.receive d.refs = some (refs, mappings) ∧
      Announces mappings branch (.sha1 oid) ∧
      Resolves d'.refs "HEAD".toList oid ∧ (∀ other, Resolves d'.refs "HEAD".toList other → other = oid) ∧
      (∃ text, d'.fetchHead = some text ∧ NamesCommit oid url branch text) ∧
      (∀ name next, refs name = some (.symbolic next) → d'.refs name = some (.symbolic next)) ∧
      ∃ last, OnWay refs "HEAD".toList last ∧ ∀ n, n ≠ last → d'.refs n = refs n := by
  obtain ⟨url, refs, mappings, oid, text, last, h1, h2, h3, _, h4, h5, rfl⟩ := performFetch_ok W d d' h
  obtain ⟨branch, h6, h7⟩ := (C74_fetch_head mappings url).1 oid text h3
  have hr := pointed_resolves refs _ last oid h4 h5
  refine ⟨url, refs, mappings, branch, oid, h1, h2, h6, hr, fun o ho => resolves_unique _ _ _ _ ho hr, ⟨text, rfl, h7⟩, ?_,
    last, h4, fun n hn => if_neg hn⟩
  intro name next hn
  show pointed refs last oid name = _
  unfold pointed
  rw [if_neg, hn]
  rintro rfl
  exact h5 _ hn

/-! ## When it succeeds -/

/-- `HEAD` is an object or names a branch that is an object or does not exist yet. -/
def Ordinary (refs : Str → Option Target) : Prop :=
  (∃ oid, refs "HEAD".toList = some (.object oid)) ∨
  ∃ branch, refs "HEAD".toList = some (.symbolic branch) ∧ ∀ next, refs branch ≠ some (.symbolic next)

theorem ordinary_edit (refs : Str → Option Target) (limit : Nat) (oid : List UInt8) (h : Ordinary refs) (hl : 2 ≤ limit) :
    headEdit refs = .ok ("HEAD".toList, false) ∧ ∃ refs', editRef limit refs "HEAD".toList false oid = some refs' := by
  obtain ⟨k, rfl⟩ : ∃ k, limit = k + 2 := ⟨limit - 2, by omega⟩
  rcases h with ⟨o, ho⟩ | ⟨branch, hb, hn⟩
  · refine ⟨by unfold headEdit; rw [ho], ?_⟩
    have : follow refs (k + 2) "HEAD".toList = some "HEAD".toList := by unfold follow; rw [ho]
    unfold editRef
    rw [this]
    exact ⟨_, rfl⟩
  · refine ⟨?_, ?_⟩
    · unfold headEdit; rw [hb]
      simp only
      split
      · rename_i n hx; exact absurd hx (hn n)
      · rfl
      · rfl
    · have : follow refs (k + 2) "HEAD".toList = some branch := by
        unfold follow; rw [hb]
        simp only
        unfold follow
        split
        · rename_i n hx; exact absurd hx (hn n)
        · rfl
      unfold editRef
      rw [this]
      exact ⟨_, rfl⟩

/-- **C74, success.**  In a repository whose `HEAD` is a commit or names a branch (born or not), a fetch succeeds exactly if
there is an `origin`, `gix` can fetch from it, `FETCH_HEAD` can be written and the remote announces its `HEAD` as a
symbolic reference to a SHA-1 commit. -/
theorem C74_success (W : RefWorld) (d : GitDir) (hl : 2 ≤ W.limit)
    (ho : ∀ refs mappings, W.receive d.refs = some (refs, mappings) → Ordinary refs) :
    (∃ d', (performFetch W d).2 = .ok d') ↔
      (∃ url, W.origin = some url) ∧ W.writable = true ∧
      ∃ refs mappings branch oid, W.receive d.refs = some (refs, mappings) ∧ Announces mappings branch (.sha1 oid) := by
  constructor
  · rintro ⟨d', h⟩
    obtain ⟨url, refs, mappings, oid, text, last, h1, h2, h3, hw, _, _, _⟩ := performFetch_ok W d d' h
    obtain ⟨branch, h6, _⟩ := (C74_fetch_head mappings url).1 oid text h3
    exact ⟨⟨url, h1⟩, hw, refs, mappings, branch, oid, h2, h6⟩
  · rintro ⟨⟨url, h1⟩, hw, refs, mappings, branch, oid, h2, h3⟩
    obtain ⟨⟨oid', text⟩, h4⟩ := (C74_fetch_head mappings url).2.1.mpr ⟨branch, oid, h3⟩
    obtain ⟨h5, refs', h6⟩ := ordinary_edit refs W.limit oid' (ho _ _ h2) hl
    refine ⟨⟨refs', some text⟩, ?_⟩
    unfold performFetch
    simp only [h1, h2, h4, hw, Bool.not_true, Bool.false_eq_true, if_false, h5, h6]

/-- **C74, detached remotes.**  A remote whose `HEAD` is not a symbolic reference can never be fetched: every attempt is an
error, even though `gix` received the commits. -/
theorem C74_detached_remote (W : RefWorld) (d : GitDir)
    (h : ∀ refs mappings, W.receive d.refs = some (refs, mappings) → ∀ b o, .symbolic "HEAD".toList b o ∉ mappings) :
    ∀ d', (performFetch W d).2 ≠ .ok d' := by
  intro d' hd
  obtain ⟨url, refs, mappings, branch, oid, _, h2, ⟨before, after, h3, _⟩, _⟩ := C74_head W d d' hd
  refine h refs mappings h2 branch (.sha1 oid) ?_
  rw [h3]
  exact List.mem_append_right _ List.mem_cons_self

/-! ## Crashes -/

/-- `gix`'s fetch leaves `HEAD` and what it names alone: it updates `refs/remotes/origin/HEAD` (and tags). -/
def LeavesHead (W : RefWorld) (refs : Str → Option Target) : Prop :=
  ∀ refs' mappings, W.receive refs = some (refs', mappings) → ∀ n, OnWay refs "HEAD".toList n → refs' n = refs n

/-- The states gone through. -/
theorem performFetch_states (W : RefWorld) (d s : GitDir) (h : s ∈ (performFetch W d).1) :
    s = d ∨ ∃ url refs mappings, W.origin = some url ∧ W.receive d.refs = some (refs, mappings) ∧
      (s = ⟨refs, d.fetchHead⟩ ∨ ∃ oid text,
        fetchHeadOf mappings url (some "origin".toList) [theRefSpec] = .ok (oid, text) ∧
        ((∃ n, s = ⟨refs, some (text.take n)⟩) ∨ (performFetch W d).2 = .ok s)) := by
  unfold performFetch at h ⊢
  cases ho : W.origin with
  | none => rw [ho] at h; exact .inl (List.mem_singleton.mp h)
  | some url =>
    rw [ho] at h
    cases hr : W.receive d.refs with
    | none => simp only [hr] at h; exact .inl (List.mem_singleton.mp h)
    | some x =>
      obtain ⟨refs, mappings⟩ := x
      simp only [hr] at h ⊢
      have two : ∀ {r : List GitDir}, s ∈ d :: (⟨refs, d.fetchHead⟩ : GitDir) :: r →
          s = d ∨ s = ⟨refs, d.fetchHead⟩ ∨ s ∈ r := by
        intro r hs
        rcases List.mem_cons.mp hs with hs | hs
        · exact .inl hs
        · exact .inr (List.mem_cons.mp hs)
      have torn : ∀ text : Str, s ∈ (List.range (text.length + 1)).map (fun n => (⟨refs, some (text.take n)⟩ : GitDir)) →
          ∃ n, s = ⟨refs, some (text.take n)⟩ := by
        intro text hs
        obtain ⟨n, _, rfl⟩ := List.mem_map.mp hs
        exact ⟨n, rfl⟩
      cases hf : fetchHeadOf mappings url (some "origin".toList) [theRefSpec] with
      | err =>
        simp only [hf] at h
        rcases two h with h | h | h
        · exact .inl h
        · exact .inr ⟨url, refs, mappings, rfl, rfl, .inl h⟩
        · cases h
      | panic =>
        simp only [hf] at h
        rcases two h with h | h | h
        · exact .inl h
        · exact .inr ⟨url, refs, mappings, rfl, rfl, .inl h⟩
        · cases h
      | ok r =>
        obtain ⟨oid, text⟩ := r
        simp only [hf] at h ⊢
        cases hw : W.writable with
        | false =>
          simp only [hw, Bool.not_false, if_true] at h
          rcases two h with h | h | h
          · exact .inl h
          · exact .inr ⟨url, refs, mappings, rfl, rfl, .inl h⟩
          · cases h
        | true =>
          simp only [hw, Bool.not_true, Bool.false_eq_true, if_false] at h ⊢
          cases he : headEdit refs with
          | err =>
            simp only [he] at h
            rcases two h with h | h | h
            · exact .inl h
            · exact .inr ⟨url, refs, mappings, rfl, rfl, .inl h⟩
            · exact .inr ⟨url, refs, mappings, rfl, rfl, .inr ⟨oid, text, hf, .inl (torn text h)⟩⟩
          | panic => exact absurd he (headEdit_no_panic refs)
          | ok r =>
            obtain ⟨name, must⟩ := r
            simp only [he] at h ⊢
            cases hd : editRef W.limit refs name must oid with
            | none =>
              simp only [hd] at h
              rcases two h with h | h | h
              · exact .inl h
              · exact .inr ⟨url, refs, mappings, rfl, rfl, .inl h⟩
              · exact .inr ⟨url, refs, mappings, rfl, rfl, .inr ⟨oid, text, hf, .inl (torn text h)⟩⟩
            | some refs' =>
              simp only [hd] at h ⊢
              rcases two h with h | h | h
              · exact .inl h
              · exact .inr ⟨url, refs, mappings, rfl, rfl, .inl h⟩
              · rcases List.mem_append.mp h with h | h
                · exact .inr ⟨url, refs, mappings, rfl, rfl, .inr ⟨oid, text, hf, .inl (torn text h)⟩⟩
                · exact .inr ⟨url, refs, mappings, rfl, rfl,
                    .inr ⟨oid, text, hf, .inr (by rw [List.mem_singleton.mp h])⟩⟩

/-- **C74, crashes.**  Stopped at any moment, the fetch leaves `HEAD` standing for the commit it stood for, or for the one
the remote announced; never for anything else and never for nothing.  `FETCH_HEAD` is as before or the beginning of its
new text, and is complete whenever `HEAD` has moved. -/
theorem C74_crash (W : RefWorld) (d s : GitDir) (hW : LeavesHead W d.refs) (h : s ∈ (performFetch W d).1) (old : List UInt8)
    (ho : Resolves d.refs "HEAD".toList old) :
    ((Resolves s.refs "HEAD".toList old ∧
        (s.fetchHead = d.fetchHead ∨ ∃ url refs mappings branch oid text n, W.origin = some url ∧
          W.receive d.refs = some (refs, mappings) ∧ Announces mappings branch (.sha1 oid) ∧
          NamesCommit oid url branch text ∧ s.fetchHead = some (text.take n))) ∨
      ∃ url refs mappings branch oid text, W.origin = some url ∧ W.receive d.refs = some (refs, mappings) ∧
        Announces mappings branch (.sha1 oid) ∧ Resolves s.refs "HEAD".toList oid ∧
        s.fetchHead = some text ∧ NamesCommit oid url branch text) := by
  rcases performFetch_states W d s h with rfl | ⟨url, refs, mappings, h1, h2, rfl | ⟨oid, text, h3, ⟨n, rfl⟩ | h4⟩⟩
  · exact .inl ⟨ho, .inl rfl⟩
  · exact .inl ⟨resolves_same _ _ _ _ ho (hW _ _ h2), .inl rfl⟩
  · obtain ⟨branch, h6, h7⟩ := (C74_fetch_head mappings url).1 oid text h3
    exact .inl ⟨resolves_same _ _ _ _ ho (hW _ _ h2),
      .inr ⟨url, refs, mappings, branch, oid, text, n, h1, h2, h6, h7, rfl⟩⟩
  · obtain ⟨url', refs', mappings', branch, oid', g1, g2, g3, g4, _, ⟨t, g5, g6⟩, _⟩ := C74_head W d s h4
    exact .inr ⟨url', refs', mappings', branch, oid', t, g1, g2, g3, g4, g5, g6⟩

/-- **C74, retries.**  After a fetch stopped at any moment, a later fetch that gets through ends with `HEAD` at the commit
announced then: nothing the first attempt left behind matters. -/
theorem C74_retry (W W' : RefWorld) (d s : GitDir) (hs : s ∈ (performFetch W d).1) (hW : LeavesHead W d.refs)
    (hW' : LeavesHead W' s.refs)
    (hd : Ordinary d.refs) (hl : 2 ≤ W'.limit) (url : Str) (hu : W'.origin = some url) (hw : W'.writable = true)
    (refs : Str → Option Target) (mappings : List Mapping) (hr : W'.receive s.refs = some (refs, mappings)) (branch : Str)
    (oid : List UInt8) (ha : Announces mappings branch (.sha1 oid)) :
    ∃ d', (performFetch W' s).2 = .ok d' ∧ Resolves d'.refs "HEAD".toList oid ∧
      ∃ text, d'.fetchHead = some text ∧ NamesCommit oid url branch text := by
  have keep : ∀ a b : Str → Option Target, Ordinary a → (∀ n, OnWay a "HEAD".toList n → b n = a n) → Ordinary b := by
    intro a b hab hn
    rcases hab with ⟨o, h⟩ | ⟨br, h, h'⟩
    · exact .inl ⟨o, (hn _ (.here _)).trans h⟩
    · refine .inr ⟨br, (hn _ (.here _)).trans h, ?_⟩
      rw [hn br (.further _ _ _ h (.here _))]
      exact h'
  have hso : Ordinary s.refs := by
    rcases performFetch_states W d s hs with rfl | ⟨u, r, m, h1, h2, rfl | ⟨o, text, h3, ⟨n, rfl⟩ | h4⟩⟩
    · exact hd
    · exact keep _ _ hd (hW _ _ h2)
    · exact keep _ _ hd (hW _ _ h2)
    · obtain ⟨u', r', m', o', t', last, _, g2, _, _, g4, g5, rfl⟩ := performFetch_ok W d s h4
      rcases keep _ _ hd (hW _ _ g2) with ⟨x, h⟩ | ⟨br, h, h'⟩
      · by_cases hx : "HEAD".toList = last
        · exact .inl ⟨o', if_pos hx⟩
        · exact .inl ⟨x, (if_neg hx).trans h⟩
      · refine .inr ⟨br, ?_, ?_⟩
        · show pointed r' last o' _ = _
          unfold pointed
          rw [if_neg, h]
          intro e
          exact g5 _ (e ▸ h)
        · intro next
          show pointed r' last o' _ ≠ _
          unfold pointed
          split
          · exact fun e => by cases e
          · exact h' next
  have hrefs : ∀ r m, W'.receive s.refs = some (r, m) → Ordinary r := fun r m h => keep _ _ hso (hW' _ _ h)
  obtain ⟨d', hd'⟩ := (C74_success W' s hl hrefs).mpr ⟨⟨url, hu⟩, hw, refs, mappings, branch, oid, hr, ha⟩
  obtain ⟨url', refs', mappings', branch', oid', g1, g2, g3, g4, _, g5, _⟩ := C74_head W' s d' hd'
  rw [hu, Option.some.injEq] at g1
  rw [hr, Option.some.injEq, Prod.mk.injEq] at g2
  obtain ⟨rfl, rfl⟩ := g2
  subst g1
  have := (remoteHead_iff _ _ _).mpr ha
  rw [(remoteHead_iff _ _ _).mpr g3, Option.some.injEq, Prod.mk.injEq, Oid.sha1.injEq] at this
  obtain ⟨rfl, rfl⟩ := this
  exact ⟨d', hd', g4, g5⟩

/-! ## Not vacuous -/

/-- A repository on `main`. -/
def refsOnMain : Str → Option Target := fun n =>
  if n = "HEAD".toList then some (.symbolic "refs/heads/main".toList)
  else if n = "refs/heads/main".toList then some (.object [1, 2])
  else none

/-- A remote that has moved on. -/
def refWorld : RefWorld where
  origin := some "https://e".toList
  receive := fun refs => some (fun n => if n = "refs/remotes/origin/HEAD".toList then some (.object [10, 255]) else refs n,
    [.objectId, .otherRef "v1".toList, .symbolic "HEAD".toList "refs/heads/main".toList (.sha1 [10, 255])])
  writable := true
  limit := 5

example : (match (performFetch refWorld ⟨refsOnMain, none⟩).2 with
    | .ok d => decide (d.refs "HEAD".toList = some (.symbolic "refs/heads/main".toList)) &&
        decide (d.refs "refs/heads/main".toList = some (.object [10, 255])) &&
        decide (d.fetchHead = some "0aff\t\thttps://e\n0aff\t\tbranch 'main' of https://e\n".toList)
    | _ => false) = true := by decide +kernel

theorem refsOnMain_ordinary : Ordinary refsOnMain :=
  .inr ⟨"refs/heads/main".toList, by decide +kernel, fun next h => by
    have e : refsOnMain "refs/heads/main".toList = some (.object [1, 2]) := by decide +kernel
    rw [e] at h; cases h⟩

/-- The example's remote leaves `HEAD` alone. -/
theorem refWorld_leaves : LeavesHead refWorld refsOnMain := by
  have e0 : refsOnMain "HEAD".toList = some (.symbolic "refs/heads/main".toList) := by decide +kernel
  have e1 : refsOnMain "refs/heads/main".toList = some (.object [1, 2]) := by decide +kernel
  intro refs' mappings hr n hn
  have hr' : refs' = fun n => if n = "refs/remotes/origin/HEAD".toList then some (.object [10, 255]) else refsOnMain n := by
    unfold refWorld at hr
    simp only [Option.some.injEq, Prod.mk.injEq] at hr
    exact hr.1.symm
  rw [hr']
  have : n = "HEAD".toList ∨ n = "refs/heads/main".toList := by
    cases hn with
    | here => exact .inl rfl
    | further _ next _ h1 h2 =>
      rw [e0] at h1; cases h1
      cases h2 with
      | here => exact .inr rfl
      | further _ next _ h3 _ => rw [e1] at h3; cases h3
  rcases this with rfl | rfl
  · exact if_neg (by decide +kernel)
  · exact if_neg (by decide +kernel)

/-- The theorems apply to it. -/
example : ∃ d', (performFetch refWorld ⟨refsOnMain, none⟩).2 = .ok d' ∧ Resolves d'.refs "HEAD".toList [10, 255] := by
  obtain ⟨d', h1, h2, _⟩ := C74_retry refWorld refWorld ⟨refsOnMain, none⟩ ⟨refsOnMain, none⟩ List.mem_cons_self
    refWorld_leaves refWorld_leaves refsOnMain_ordinary (by decide) _ rfl rfl _ _ rfl "refs/heads/main".toList [10, 255]
    ⟨[.objectId, .otherRef "v1".toList], [], rfl, fun b o h => by
      rcases List.mem_cons.mp h with h | h
      · cases h
      · rcases List.mem_cons.mp h with h | h
        · cases h
        · cases h⟩
  exact ⟨d', h1, h2⟩

example : Resolves refsOnMain "HEAD".toList [1, 2] :=
  .through _ "refs/heads/main".toList _ (by decide +kernel) (.direct _ _ (by decide +kernel))

/-- A detached remote. -/
example : (performFetch { refWorld with receive := fun refs => some (refs, [.otherRef "HEAD".toList]) }
    ⟨refsOnMain, none⟩).2.isOk = false := by decide +kernel

end Verif.Props
