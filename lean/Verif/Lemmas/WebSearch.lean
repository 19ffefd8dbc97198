import Verif.Model.WebSearch
import Verif.Props.Json
import Verif.Props.Source

/-!
# Lemmas for C101
-/

namespace Verif.Props

open Verif Verif.Lock Verif.Adv Verif.Spec Verif.Web

/-! ### Percent encoding -/

private theorem pctBytes_pct (h l : Char) (s : Str) : pctBytes ('%' :: h :: l :: s) = (pctValue h l).bind fun b => (pctBytes s).map (b :: ·) := by
  rw [pctBytes]

private theorem pctBytes_plain {c : Char} (hc : c ≠ '%') (s : Str) : pctBytes (c :: s) = (pctBytes s).map (String.utf8EncodeChar c ++ ·) := by
  rw [pctBytes.eq_3 c s (fun h l s' e _ => hc e), if_neg hc]

private theorem pctBytes_bytes (bs : List UInt8) (t : Str) (r : List UInt8) (ht : pctBytes t = some r) :
    pctBytes (bs.flatMap pctByte ++ t) = some (bs ++ r) := by
  induction bs with
  | nil => exact ht
  | cons b bs ih =>
    show pctBytes ('%' :: _ :: _ :: (bs.flatMap pctByte ++ t)) = _
    rw [pctBytes_pct, pctValue_upper, ih]
    rfl

private theorem keep_not_pct {c : Char} (h : keepComponent c = true) : c ≠ '%' := by
  rintro rfl; exact absurd h (by decide)

theorem pctBytes_encode (s : Str) : pctBytes (encodeURIComponent s) = some (utf8 s) := by
  induction s with
  | nil => rfl
  | cons c s ih =>
    have e : encodeURIComponent (c :: s) =
        (if keepComponent c then [c] else (String.utf8EncodeChar c).flatMap pctByte) ++ encodeURIComponent s := rfl
    rw [e]
    by_cases h : keepComponent c = true
    · rw [if_pos h]
      show pctBytes (c :: encodeURIComponent s) = _
      rw [pctBytes_plain (keep_not_pct h), ih]
      rfl
    · rw [if_neg h, pctBytes_bytes _ _ _ ih]
      rfl

theorem strictN_utf8 (s : Str) : ∀ n, (utf8 s).length ≤ n → strictN n (utf8 s) = some s := by
  induction s with
  | nil => intro n _; cases n <;> rfl
  | cons c s ih =>
    intro n hn
    have e : utf8 (c :: s) = String.utf8EncodeChar c ++ utf8 s := rfl
    have hlen : (String.utf8EncodeChar c).length = c.utf8Size := String.length_utf8EncodeChar c
    have hpos : 0 < c.utf8Size := Char.utf8Size_pos c
    rw [e] at hn ⊢
    rw [List.length_append, hlen] at hn
    cases hb : String.utf8EncodeChar c ++ utf8 s with
    | nil =>
      have := congrArg List.length hb
      rw [List.length_append, hlen] at this
      simp at this; omega
    | cons b bs =>
      cases n with
      | zero => omega
      | succ n =>
        rw [strictN, ← hb, decodeOne_encode]
        dsimp only
        rw [List.drop_append_of_le_length (by omega), List.drop_of_length_le (by omega), List.nil_append, ih n (by omega)]
        rfl

theorem decode_encode (s : Str) : decodeURIComponent (encodeURIComponent s) = some s := by
  unfold decodeURIComponent
  rw [pctBytes_encode, Option.bind_some, strictN_utf8 s _ (Nat.le_refl _)]

private theorem encode_append (s t : Str) : encodeURIComponent (s ++ t) = encodeURIComponent s ++ encodeURIComponent t := by
  unfold encodeURIComponent pctEncode
  rw [List.flatMap_append]

private theorem hex_kept (n : Nat) : hexDigitUpper n ≠ '/' := by
  unfold hexDigitUpper
  by_cases h : n < 16
  · have : ∀ n < 16, "0123456789ABCDEF".toList.getD n '0' ≠ '/' := by decide
    exact this n h
  · rw [List.getD_eq_getElem?_getD, List.getElem?_eq_none (by show 16 ≤ n; omega)]
    decide

theorem encode_no_slash (s : Str) : '/' ∉ encodeURIComponent s := by
  intro h
  obtain ⟨c, -, hc⟩ := List.mem_flatMap.mp h
  split at hc
  · rename_i hk
    rw [List.mem_singleton] at hc
    subst hc
    exact absurd hk (by decide)
  · obtain ⟨b, -, hb⟩ := List.mem_flatMap.mp hc
    simp only [pctByte, List.mem_cons, List.not_mem_nil, or_false] at hb
    rcases hb with hb | hb | hb
    · exact absurd hb (by decide)
    · exact hex_kept _ hb.symm
    · exact hex_kept _ hb.symm

/-- The server finds the file whose name was encoded. -/
theorem served_encoded (folder : String) (hf : encodeURIComponent folder.toList = folder.toList) (name : Str) :
    served ('/' :: (folder.toList ++ '/' :: (encodeURIComponent name ++ ".html".toList))) = some (folder.toList, name ++ ".html".toList) := by
  have hs : '/' ∉ folder.toList := hf ▸ encode_no_slash _
  rw [served, if_pos rfl]
  unfold servedPath
  rw [cutC_append hs]
  dsimp only
  have e1 : decodeURIComponent folder.toList = some folder.toList := by
    conv_lhs => rw [← hf]
    exact decode_encode _
  have e2 : decodeURIComponent (encodeURIComponent name ++ ".html".toList) = some (name ++ ".html".toList) := by
    have : ".html".toList = encodeURIComponent ".html".toList := by decide
    conv_lhs => rw [this, ← encode_append]
    exact decode_encode _
  rw [e1, e2]
  rfl

/-! ### Queries -/

private theorem splitC_none {c : Char} {s : Str} (h : c ∉ s) : splitC c s = [s] := by
  induction s with
  | nil => rfl
  | cons x s ih =>
    rw [List.mem_cons, not_or] at h
    unfold splitC
    rw [if_neg (fun e => h.1 e.symm), ih h.2]

private theorem form_back (v : Str) : lossy (formDecode (byteSerialize v)) = v := by
  rw [formDecode_byteSerialize, lossy_utf8]

/-- The search page gets the text that was put in its address. -/
theorem query_back (v : Str) : queryGet (queryOf "q".toList v) "q".toList = some v := by
  have e : queryOf "q".toList v = 'q' :: '=' :: byteSerialize v := rfl
  have hamp : '&' ∉ queryOf "q".toList v := by
    rw [e]
    intro h
    rcases List.mem_cons.mp h with h | h
    · exact absurd h (by decide)
    · rcases List.mem_cons.mp h with h | h
      · exact absurd h (by decide)
      · have := (byteSerialize_chars v _ h).1
        simp at this
  unfold queryGet
  rw [splitC_none hamp, e]
  have hd : decodePair ('q' :: '=' :: byteSerialize v) = ("q".toList, v) := by
    unfold decodePair
    rw [show cutC '=' ('q' :: '=' :: byteSerialize v) = ("q".toList, some (byteSerialize v)) from
      cutC_append (s := "q".toList) (by decide) _]
    dsimp only
    rw [Option.getD_some, form_back]
    rfl
  simp [hd]

/-! ### Trimming -/

private theorem dropWhile_first {p : Char → Bool} (s : Str) : ∀ c, (s.dropWhile p).head? = some c → p c = false := by
  induction s with
  | nil => intro c h; cases h
  | cons x s ih =>
    intro c h
    by_cases hx : p x = true
    · rw [List.dropWhile_cons_of_pos hx] at h; exact ih c h
    · rw [List.dropWhile_cons_of_neg hx] at h
      cases h; simpa using hx

private theorem dropWhile_id {p : Char → Bool} {s : Str} (h : ∀ c, s.head? = some c → p c = false) : s.dropWhile p = s := by
  cases s with
  | nil => rfl
  | cons x s => rw [List.dropWhile_cons_of_neg (by rw [h x rfl]; simp)]

theorem jsTrim_twice (s : Str) : jsTrim (jsTrim s) = jsTrim s := by
  have hr : ((jsTrim s).reverse).dropWhile jsWhite = (jsTrim s).reverse := by
    refine dropWhile_id ?_
    unfold jsTrim
    rw [List.reverse_reverse]
    exact dropWhile_first _
  have hl : (jsTrim s).dropWhile jsWhite = jsTrim s := by
    refine dropWhile_id fun c hc => ?_
    -- the first character of the trimmed text is the first of the text trimmed at its start
    have hsub : ∃ t, s.dropWhile jsWhite = jsTrim s ++ t := by
      obtain ⟨t, ht⟩ := List.dropWhile_suffix (l := (s.dropWhile jsWhite).reverse) jsWhite
      refine ⟨t.reverse, ?_⟩
      have := congrArg List.reverse ht
      rw [List.reverse_append, List.reverse_reverse] at this
      exact this.symm
    obtain ⟨t, ht⟩ := hsub
    refine dropWhile_first s c ?_
    rw [ht]
    cases hj : jsTrim s with
    | nil => rw [hj] at hc; cases hc
    | cons x r => rw [hj] at hc; exact hc
  have e : jsTrim (jsTrim s) = (((jsTrim s).dropWhile jsWhite).reverse.dropWhile jsWhite).reverse := rfl
  rw [e, hl, hr, List.reverse_reverse]

/-! ### The index file -/

private theorem dropPrefix_append (p s : Str) : dropPrefix p (p ++ s) = some s := by
  induction p with
  | nil => cases s <;> rfl
  | cons c p ih => show (if c = c then dropPrefix p (p ++ s) else none) = _; rw [if_pos rfl, ih]

private theorem varLine_print (name : String) (j : Json) (rest : Str) :
    varLine name ("var ".toList ++ name.toList ++ " = ".toList ++ (j.print ++ '\n' :: rest)) = some (j, rest) := by
  unfold varLine
  rw [dropPrefix_append, Option.bind_some]
  have hn : '\n' ∉ j.print := fun h => absurd (print_visible j _ h) (by decide)
  rw [cutC_append hn]
  dsimp only
  rw [readJson_print]
  rfl

theorem globals_text (ids : List (Str × List Id)) (packages : List Str) (h : ∀ e ∈ ids, e.1 ≠ "__proto__".toList) :
    globals (indexText ids packages) = some (idsJson ids, packagesJson packages) := by
  unfold globals
  have e : indexText ids packages = "var ".toList ++ "ids".toList ++ " = ".toList ++ ((idsJson ids).print ++ '\n' ::
      ("var ".toList ++ "packages".toList ++ " = ".toList ++ ((packagesJson packages).print ++ '\n' :: []))) := by
    unfold indexText
    rw [show "var ids = ".toList = "var ".toList ++ "ids".toList ++ " = ".toList by decide,
      show "\nvar packages = ".toList = '\n' :: ("var ".toList ++ "packages".toList ++ " = ".toList) by decide]
    simp only [List.append_assoc, List.cons_append]
  rw [e, varLine_print, Option.bind_some, varLine_print, Option.bind_some]
  have ho : ordinary (idsJson ids) = true := by
    unfold ordinary idsJson
    simp only [List.all_eq_true, List.mem_map, decide_eq_true_eq]
    rintro _ ⟨e, he, rfl⟩
    exact h e he
  rw [if_pos (by rw [ho]; rfl)]

/-! ### Members -/

theorem lookup_nodup {α : Type} {l : List (Str × α)} (hn : (l.map Prod.fst).Nodup) (k : Str) (v : α) :
    l.lookup k = some v ↔ (k, v) ∈ l := by
  induction l with
  | nil => simp
  | cons e l ih =>
    obtain ⟨a, b⟩ := e
    rw [List.map_cons, List.nodup_cons] at hn
    rw [List.lookup_cons]
    by_cases h : k = a
    · subst h
      simp only [BEq.rfl, List.mem_cons, Prod.mk.injEq, true_and, Option.some.injEq]
      constructor
      · rintro rfl; exact .inl rfl
      · rintro (rfl | h)
        · rfl
        · exact absurd (List.mem_map.mpr ⟨_, h, rfl⟩) hn.1
    · have hb : (k == a) = false := by simpa using h
      rw [hb]
      simp only [List.mem_cons, Prod.mk.injEq]
      rw [ih hn.2]
      constructor
      · exact .inr
      · rintro (⟨h', -⟩ | h')
        · exact absurd h' h
        · exact h'

theorem includes_iff (packages : List Str) (term : Str) : includes (packagesJson packages) term = true ↔ term ∈ packages := by
  unfold includes packagesJson
  simp [List.any_eq_true]

end Verif.Props
