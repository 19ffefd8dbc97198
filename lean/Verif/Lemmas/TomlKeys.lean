import Verif.Spec.Toml

/-!
# Keys and fuel of the TOML reader

More fuel reads no less; the keys of a document are distinct; and what a header in front of a text changes.
-/

namespace Verif.Toml

/-! ## Fuel -/

theorem key_mono {n m : Nat} (h : n ≤ m) {s : Str} {p : List Str × Str} (hp : key n s = some p) : key m s = some p := by
  induction n generalizing m s p with
  | zero => simp [key] at hp
  | succ n ih =>
    obtain ⟨m, rfl⟩ : ∃ k, m = k + 1 := ⟨m - 1, by omega⟩
    simp only [key, Option.bind_eq_some_iff] at hp ⊢
    obtain ⟨⟨k, r⟩, h1, h2⟩ := hp
    refine ⟨⟨k, r⟩, h1, ?_⟩
    dsimp only at h2 ⊢
    split at h2
    · exact h2
    · simp only [Option.map_eq_some_iff] at h2 ⊢
      obtain ⟨q, hq, rfl⟩ := h2
      exact ⟨q, ih (by omega) hq, rfl⟩

theorem values_mono (n : Nat) : ∀ m, n ≤ m →
    (∀ s p, value n s = some p → value m s = some p) ∧
    (∀ s p, array n s = some p → array m s = some p) ∧
    (∀ s p, inline n s = some p → inline m s = some p) := by
  induction n with
  | zero => intro m _; refine ⟨?_, ?_, ?_⟩ <;> intro s p hp <;> simp [value, array, inline] at hp
  | succ n ih =>
    intro m hm
    obtain ⟨m, rfl⟩ : ∃ k, m = k + 1 := ⟨m - 1, by omega⟩
    obtain ⟨iv, ia, ii⟩ := ih m (by omega)
    refine ⟨?_, ?_, ?_⟩
    · intro s p hp
      cases s with
      | nil => simp [value] at hp
      | cons c r =>
        rw [value] at hp ⊢
        split at hp
        · next h => rw [if_pos h]; exact hp
        · next h =>
          rw [if_neg h]
          split at hp
          · next h => 
            rw [if_pos h]
            simp only [Option.map_eq_some_iff] at hp ⊢
            obtain ⟨q, hq, rfl⟩ := hp
            exact ⟨q, ia _ _ hq, rfl⟩
          · next h =>
            rw [if_neg h]
            split at hp
            · next h =>
              rw [if_pos h]
              simp only [Option.bind_eq_some_iff] at hp ⊢
              obtain ⟨q, hq, h2⟩ := hp
              exact ⟨q, ii _ _ hq, h2⟩
            · next h => rw [if_neg h]; exact hp
    · intro s p hp
      rw [array] at hp ⊢
      split at hp
      · exact hp
      · simp only [Option.bind_eq_some_iff] at hp ⊢
        obtain ⟨q, hq, h2⟩ := hp
        refine ⟨q, iv _ _ hq, ?_⟩
        split at h2
        · simp only [Option.map_eq_some_iff] at h2 ⊢
          obtain ⟨w, hw, rfl⟩ := h2
          exact ⟨w, ia _ _ hw, rfl⟩
        · exact h2
    · intro s p hp
      rw [inline] at hp ⊢
      split at hp
      · exact hp
      · simp only [Option.bind_eq_some_iff] at hp ⊢
        obtain ⟨k, hk, r, hr, q, hq, h2⟩ := hp
        refine ⟨k, key_mono (by omega) hk, r, hr, q, iv _ _ hq, ?_⟩
        split at h2
        · simp only [Option.map_eq_some_iff] at h2 ⊢
          obtain ⟨w, hw, rfl⟩ := h2
          exact ⟨w, ii _ _ hw, rfl⟩
        · exact h2

theorem line_mono {n m : Nat} (h : n ≤ m) {s : Str} {p : Option Stmt × Str} (hp : line n s = some p) :
    line m s = some p := by
  unfold line at hp ⊢
  split at hp
  · exact hp
  · split at hp
    · next h => rw [if_pos h]; exact hp
    · next h1 =>
      rw [if_neg h1]
      split at hp
      · next h2 =>
        rw [if_pos h2]
        split at hp
        · simp only [Option.bind_eq_some_iff] at hp ⊢
          obtain ⟨k, hk, h3⟩ := hp
          exact ⟨k, key_mono h hk, h3⟩
        · simp only [Option.bind_eq_some_iff] at hp ⊢
          obtain ⟨k, hk, h3⟩ := hp
          exact ⟨k, key_mono h hk, h3⟩
      · next h2 =>
        rw [if_neg h2]
        simp only [Option.bind_eq_some_iff] at hp ⊢
        obtain ⟨k, hk, r, hr, q, hq, h3⟩ := hp
        exact ⟨k, key_mono h hk, r, hr, q, (values_mono n m h).1 _ _ hq, h3⟩

theorem statements_mono {n m : Nat} (h : n ≤ m) {s : Str} {l : List Stmt} (hl : statements n s = some l) :
    statements m s = some l := by
  induction n generalizing m s l with
  | zero => simp [statements] at hl
  | succ n ih =>
    obtain ⟨m, rfl⟩ : ∃ k, m = k + 1 := ⟨m - 1, by omega⟩
    cases s with
    | nil => simpa [statements] using hl
    | cons c r =>
      simp only [statements, Option.bind_eq_some_iff, Option.map_eq_some_iff] at hl ⊢
      obtain ⟨p, hp, q, hq, rfl⟩ := hl
      exact ⟨p, line_mono (by omega) hp, q, ih (by omega) hq, rfl⟩

/-! ## Keys -/

/-- Only the entry with the key changes; it is there afterwards. -/
theorem change_lookup {k : Str} {f : Option Node → Option Node} {es es' : Entries} (h : change k f es = some es') :
    (∃ n, f (es.lookup k) = some n ∧ es'.lookup k = some n) ∧ ∀ j, j ≠ k → es'.lookup j = es.lookup j := by
  induction es generalizing es' with
  | nil =>
    simp only [change, Option.map_eq_some_iff] at h
    obtain ⟨n, hn, rfl⟩ := h
    refine ⟨⟨n, hn, by simp [List.lookup]⟩, fun j hj => ?_⟩
    rw [List.lookup_cons, show (j == k) = false by simpa using hj]
  | cons e es ih =>
    obtain ⟨k', n⟩ := e
    rw [change] at h
    split at h
    · next hk =>
      subst hk
      simp only [Option.map_eq_some_iff] at h
      obtain ⟨n', hn, rfl⟩ := h
      refine ⟨⟨n', by simpa [List.lookup] using hn, by simp [List.lookup]⟩, fun j hj => ?_⟩
      rw [List.lookup_cons, List.lookup_cons, show (j == k') = false by simpa using hj]
    · next hk =>
      simp only [Option.map_eq_some_iff] at h
      obtain ⟨es'', hn, rfl⟩ := h
      obtain ⟨⟨m, h1, h2⟩, h3⟩ := ih hn
      have hk' : (k == k') = false := by simpa using fun h : k = k' => hk h.symm
      refine ⟨⟨m, ?_, ?_⟩, fun j hj => ?_⟩
      · rw [List.lookup_cons, hk']; exact h1
      · rw [List.lookup_cons, hk']; exact h2
      · rw [List.lookup_cons, List.lookup_cons, h3 j hj]

theorem change_keys {k : Str} {f : Option Node → Option Node} {es es' : Entries} (h : change k f es = some es') :
    es'.map (·.1) = es.map (·.1) ∧ k ∈ es.map (·.1) ∨ es'.map (·.1) = es.map (·.1) ++ [k] ∧ k ∉ es.map (·.1) := by
  induction es generalizing es' with
  | nil =>
    simp only [change, Option.map_eq_some_iff] at h
    obtain ⟨n, hn, rfl⟩ := h
    simp
  | cons e es ih =>
    obtain ⟨k', n⟩ := e
    rw [change] at h
    split at h
    · next hk =>
      simp only [Option.map_eq_some_iff] at h
      obtain ⟨n', hn, rfl⟩ := h
      left; simp [hk]
    · next hk =>
      simp only [Option.map_eq_some_iff] at h
      obtain ⟨es'', hn, rfl⟩ := h
      rcases ih hn with ⟨h1, h2⟩ | ⟨h1, h2⟩
      · left; exact ⟨by simp [h1], List.mem_cons_of_mem _ h2⟩
      · right; exact ⟨by simp [h1], by simpa using ⟨fun h => hk h.symm, by simpa using h2⟩⟩

/-- What a change of entries does to their keys: they stay distinct, and none is lost. -/
def Grows (es es' : Entries) : Prop :=
  ((es.map (·.1)).Nodup → (es'.map (·.1)).Nodup) ∧ ∀ k ∈ es.map (·.1), k ∈ es'.map (·.1)

theorem Grows.trans {a b c : Entries} (h : Grows a b) (h' : Grows b c) : Grows a c :=
  ⟨fun x => h'.1 (h.1 x), fun k x => h'.2 k (h.2 k x)⟩

theorem change_grows {k : Str} {f : Option Node → Option Node} {es es' : Entries} (h : change k f es = some es') :
    Grows es es' := by
  rcases change_keys h with ⟨h1, -⟩ | ⟨h1, h2⟩
  · exact ⟨by rw [h1]; exact id, by rw [h1]; exact fun _ => id⟩
  · refine ⟨fun hd => ?_, fun j hj => by rw [h1]; exact List.mem_append_left _ hj⟩
    rw [h1, List.nodup_append]
    refine ⟨hd, by simp, ?_⟩
    intro a ha b hb e
    cases List.mem_singleton.mp hb
    exact h2 (e ▸ ha)

theorem put_grows {ks : List Str} {v : Value} {es es' : Entries} (h : put ks v es = some es') : Grows es es' := by
  match ks with
  | [] => simp [put] at h
  | [k] => exact change_grows (by simpa only [put] using h)
  | k :: j :: ks => exact change_grows (by simpa only [put] using h)

theorem header_grows {last : Option Node → Option Node} {ks : List Str} {es es' : Entries}
    (h : header last ks es = some es') : Grows es es' := by
  match ks with
  | [] => simp [header] at h
  | [k] => exact change_grows (by simpa only [header] using h)
  | k :: j :: ks => exact change_grows (by simpa only [header] using h)

theorem inside_grows {ks p : List Str} {v : Value} {es es' : Entries} (h : inside (put ks v) p es = some es') :
    Grows es es' := by
  match p with
  | [] => exact put_grows (by simpa only [inside] using h)
  | k :: p => exact change_grows (by simpa only [inside] using h)

theorem build_grows {l : List Stmt} {p : List Str} {es es' : Entries} (h : build l p es = some es') : Grows es es' := by
  induction l generalizing p es with
  | nil =>
    simp only [build, Option.some.injEq] at h
    subst h
    exact ⟨id, fun _ => id⟩
  | cons st l ih =>
    cases st with
    | pair k v =>
      simp only [build, Option.bind_eq_some_iff] at h
      obtain ⟨e, h1, h2⟩ := h
      exact (inside_grows h1).trans (ih h2)
    | table k =>
      simp only [build, Option.bind_eq_some_iff] at h
      obtain ⟨e, h1, h2⟩ := h
      exact (header_grows h1).trans (ih h2)
    | item k =>
      simp only [build, Option.bind_eq_some_iff] at h
      obtain ⟨e, h1, h2⟩ := h
      exact (header_grows h1).trans (ih h2)

theorem entriesValue_keys (es : Entries) : (entriesValue es).map (·.1) = es.map (·.1) := by
  induction es with
  | nil => rfl
  | cons e es ih => obtain ⟨k, n⟩ := e; simp [entriesValue, ih]

theorem entriesValue_lookup (es : Entries) (k : Str) : (entriesValue es).lookup k = (es.lookup k).map Node.value := by
  induction es with
  | nil => rfl
  | cons e es ih =>
    obtain ⟨j, n⟩ := e
    rw [entriesValue, List.lookup_cons, List.lookup_cons, ih]
    split <;> rfl

/-- The keys of a document are distinct. -/
theorem read_distinct {s : Str} {t : Table} (h : read s = some t) : (t.map (·.1)).Nodup := by
  simp only [read, Option.map_eq_some_iff, Option.bind_eq_some_iff] at h
  obtain ⟨es, ⟨l, -, hb⟩, rfl⟩ := h
  rw [entriesValue_keys]
  exact (build_grows hb).1 (by simp)

/-! ## A header in front of a text -/

/-- The table `a` was made by its header, and the keys of its plain values are among these. -/
def Within (a : Str) (K : List Str) (es : Entries) : Prop :=
  ∃ m, es.lookup a = some (.tbl .header m) ∧ ∀ k v, m.lookup k = some (.leaf v) → k ∈ K

/-- It is never a plain value. -/
def NoLeaf (f : Option Node → Option Node) : Prop := ∀ o v, f o ≠ some (.leaf v)

theorem noLeaf_onWay (f : Entries → Option Entries) : NoLeaf (onWay f) := by
  intro o v h
  unfold onWay at h
  split at h
  · simp only [Option.map_eq_some_iff] at h; obtain ⟨_, _, h⟩ := h; cases h
  · simp only [Option.map_eq_some_iff] at h; obtain ⟨_, _, h⟩ := h; cases h
  · simp only [Option.map_eq_some_iff] at h; obtain ⟨_, _, h⟩ := h; cases h
  · cases h

theorem noLeaf_newTable : NoLeaf newTable := by
  intro o v h
  unfold newTable at h
  split at h <;> cases h

theorem noLeaf_newItem : NoLeaf newItem := by
  intro o v h
  unfold newItem at h
  split at h <;> cases h

/-- A change of `f` in the table `a`, where `f` adds no plain value. -/
theorem within_change {a b : Str} {K : List Str} {es es' : Entries} {f : Option Node → Option Node} (hw : Within a K es)
    (h : change b f es = some es')
    (hf : b = a → ∀ m n, f (some (.tbl .header m)) = some n → ∃ m', n = .tbl .header m' ∧
      ∀ k v, m'.lookup k = some (.leaf v) → m.lookup k = some (.leaf v)) : Within a K es' := by
  obtain ⟨m, hm, hk⟩ := hw
  obtain ⟨⟨n, h1, h2⟩, h3⟩ := change_lookup h
  by_cases hb : b = a
  · subst hb
    rw [hm] at h1
    obtain ⟨m', rfl, hm'⟩ := hf rfl m n h1
    exact ⟨m', h2, fun k v hv => hk k v (hm' k v hv)⟩
  · exact ⟨m, by rw [h3 a (Ne.symm hb)]; exact hm, hk⟩

theorem leaves_change {b : Str} {m m' : Entries} {f : Option Node → Option Node} (hf : NoLeaf f)
    (h : change b f m = some m') (k : Str) (v : Value) (hv : m'.lookup k = some (.leaf v)) : m.lookup k = some (.leaf v) := by
  obtain ⟨⟨n, h1, h2⟩, h3⟩ := change_lookup h
  by_cases hb : k = b
  · subst hb
    rw [h2] at hv
    cases hv
    exact absurd h1 (hf _ _)
  · rw [← h3 k hb]; exact hv

theorem within_header {a : Str} {K : List Str} {es es' : Entries} {last : Option Node → Option Node} {ks : List Str}
    (hl : NoLeaf last) (hlast : ∀ m, last (some (.tbl .header m)) = none) (hw : Within a K es)
    (h : header last ks es = some es') : Within a K es' ∧ ks ≠ [] ∧ ks ≠ [a] := by
  match ks with
  | [] => simp [header] at h
  | [b] =>
    simp only [header] at h
    have hne : b ≠ a := by
      rintro rfl
      obtain ⟨m, hm, -⟩ := hw
      obtain ⟨⟨n, h1, -⟩, -⟩ := change_lookup h
      rw [hm, hlast] at h1
      cases h1
    exact ⟨within_change hw h fun e => absurd e hne, by simp, by simpa using hne⟩
  | b :: c :: ks =>
    simp only [header] at h
    refine ⟨within_change hw h ?_, by simp, by simp⟩
    intro _ m n hn
    simp only [onWay, Option.map_eq_some_iff] at hn
    obtain ⟨m', hm', rfl⟩ := hn
    refine ⟨m', rfl, ?_⟩
    match ks with
    | [] => simp only [header] at hm'; exact leaves_change hl hm'
    | d :: ks => simp only [header] at hm'; exact leaves_change (noLeaf_onWay _) hm'

theorem within_inside {a : Str} {K : List Str} {es es' : Entries} {f : Entries → Option Entries} {p : List Str}
    (hp : p ≠ []) (hp' : p ≠ [a]) (hw : Within a K es) (h : inside f p es = some es') : Within a K es' := by
  match p with
  | [] => exact absurd rfl hp
  | [b] =>
    simp only [inside] at h
    exact within_change hw h fun e => absurd (by rw [e]) hp'
  | b :: c :: p =>
    simp only [inside] at h
    refine within_change hw h ?_
    intro _ m n hn
    simp only [onWay, Option.map_eq_some_iff] at hn
    obtain ⟨m', hm', rfl⟩ := hn
    exact ⟨m', rfl, leaves_change (noLeaf_onWay _) hm'⟩

theorem within_build {a : Str} {K : List Str} {l : List Stmt} {p : List Str} {es es' : Entries}
    (hp : p ≠ []) (hp' : p ≠ [a]) (hw : Within a K es) (h : build l p es = some es') : Within a K es' := by
  induction l generalizing p es with
  | nil =>
    simp only [build, Option.some.injEq] at h
    subst h
    exact hw
  | cons st l ih =>
    cases st with
    | pair k v =>
      simp only [build, Option.bind_eq_some_iff] at h
      obtain ⟨e, h1, h2⟩ := h
      exact ih hp hp' (within_inside hp hp' hw h1) h2
    | table k =>
      simp only [build, Option.bind_eq_some_iff] at h
      obtain ⟨e, h1, h2⟩ := h
      obtain ⟨hw', h3, h4⟩ := within_header noLeaf_newTable (fun _ => rfl) hw h1
      exact ih h3 h4 hw' h2
    | item k =>
      simp only [build, Option.bind_eq_some_iff] at h
      obtain ⟨e, h1, h2⟩ := h
      obtain ⟨hw', h3, h4⟩ := within_header noLeaf_newItem (fun _ => rfl) hw h1
      exact ih h3 h4 hw' h2

/-- Statements under the header `[a]`, and the same statements by themselves. -/
theorem build_under {a : Str} {l : List Stmt} {A es es' : Entries} (h : build l [] A = some es)
    (h' : build l [a] [(a, .tbl .header A)] = some es') : Within a (es.map (·.1)) es' := by
  have start : ∀ {l p}, build l p A = some es → Within a (es.map (·.1)) [(a, .tbl .header A)] := by
    intro l p hb
    refine ⟨A, by simp [List.lookup], fun k v hv => (build_grows hb).2 k ?_⟩
    rw [List.lookup_eq_some_iff] at hv
    obtain ⟨l1, l2, e, -⟩ := hv
    rw [e]; simp
  induction l generalizing A with
  | nil =>
    simp only [build, Option.some.injEq] at h'
    subst h'
    exact start h
  | cons st l ih =>
    cases st with
    | pair k v =>
      simp only [build, inside, Option.bind_eq_some_iff] at h h'
      obtain ⟨e, h1, h2⟩ := h
      obtain ⟨e', h1', h2'⟩ := h'
      simp only [change, if_true, onWay, inside, h1, Option.map_some, Option.some.injEq] at h1'
      subst h1'
      refine ih h2 h2' ?_
      intro l p hb
      refine ⟨e, by simp [List.lookup], fun k v hv => (build_grows hb).2 k ?_⟩
      rw [List.lookup_eq_some_iff] at hv
      obtain ⟨l1, l2, e, -⟩ := hv
      rw [e]; simp
    | table k =>
      have hs := start h
      simp only [build, Option.bind_eq_some_iff] at h'
      obtain ⟨e, h1, h2⟩ := h'
      obtain ⟨hw, h3, h4⟩ := within_header noLeaf_newTable (fun _ => rfl) hs h1
      exact within_build h3 h4 hw h2
    | item k =>
      have hs := start h
      simp only [build, Option.bind_eq_some_iff] at h'
      obtain ⟨e, h1, h2⟩ := h'
      obtain ⟨hw, h3, h4⟩ := within_header noLeaf_newItem (fun _ => rfl) hs h1
      exact within_build h3 h4 hw h2

theorem value_str {n : Node} {s : Str} (h : n.value = .str s) : n = .leaf (.str s) := by
  cases n with
  | leaf v => rw [Node.value] at h; rw [h]
  | tbl _ _ => rw [Node.value] at h; cases h
  | items _ => rw [Node.value] at h; cases h

/-- If a text is a document by itself and under the line `[advisory]`, the strings of that table are values of
top-level keys of the text. -/
theorem read_under {s : Str} {t t' m : Table} (h : read s = some t) (h' : read ("[advisory]\n".toList ++ s) = some t')
    (hm : t'.lookup "advisory".toList = some (.table m)) {k x : Str} (hk : m.lookup k = some (.str x)) :
    k ∈ t.map (·.1) := by
  simp only [read, Option.map_eq_some_iff, Option.bind_eq_some_iff] at h h'
  obtain ⟨es, ⟨l, hl, hb⟩, rfl⟩ := h
  obtain ⟨es', ⟨l', hl', hb'⟩, rfl⟩ := h'
  have hlen : ("[advisory]\n".toList ++ s).length + 1 = (s.length + 11) + 1 := by
    rw [List.length_append]; show 11 + s.length + 1 = _; omega
  rw [hlen] at hl'
  have hline : ∀ n, line (n + 1) ("[advisory]\n".toList ++ s) = some (some (.table ["advisory".toList]), s) := fun n => by
    have hk : key (n + 1) ("advisory]\n".toList ++ s) = some (["advisory".toList], "]\n".toList ++ s) := rfl
    have hx : line (n + 1) ("[advisory]\n".toList ++ s) = ((key (n + 1) ("advisory]\n".toList ++ s)).bind fun k =>
      (expect ']' (skipWs k.2)).bind fun r => (endLine r).map fun r => (some (.table k.1), r)) := rfl
    rw [hx, hk]
    rfl
  have hst : statements (s.length + 11 + 1) ("[advisory]\n".toList ++ s) =
      some (.table ["advisory".toList] :: l) := by
    have hx : statements (s.length + 11 + 1) ("[advisory]\n".toList ++ s) =
      ((line (s.length + 11 + 1) ("[advisory]\n".toList ++ s)).bind fun p =>
        (statements (s.length + 11) p.2).map fun l => p.1.toList ++ l) := rfl
    rw [hx, hline, Option.bind_some, statements_mono (by omega) hl]
    rfl
  rw [hst] at hl'
  cases hl'
  have hb2 : build l ["advisory".toList] [("advisory".toList, .tbl .header [])] = some es' := hb'
  obtain ⟨M, h1, h2⟩ := build_under hb hb2
  rw [entriesValue_lookup, h1] at hm
  simp only [Option.map_some, Node.value, Option.some.injEq, Value.table.injEq] at hm
  subst hm
  rw [entriesValue_lookup, Option.map_eq_some_iff] at hk
  obtain ⟨n, hn, hv⟩ := hk
  rw [value_str hv] at hn
  rw [entriesValue_keys]
  exact h2 _ _ hn

end Verif.Toml
