import Verif.Spec.Toml

/-!
# Building TOML tables

Lemmas on `Verif.Toml.build`: `key = value` lines fill the table of the last header; `[[…]]` headers add tables.
-/

namespace Verif.Toml

theorem change_new {k : Str} {f : Option Node → Option Node} {es : Entries} (h : k ∉ es.map (·.1)) :
    change k f es = (f none).map fun n => es ++ [(k, n)] := by
  induction es with
  | nil => rfl
  | cons e es ih =>
    obtain ⟨k', n⟩ := e
    simp only [List.map_cons, List.mem_cons, not_or] at h
    rw [change, if_neg (fun hh => h.1 hh.symm), ih h.2]
    cases f none <;> rfl

theorem change_there {k : Str} {f : Option Node → Option Node} {es : Entries} {n : Node} (h : k ∉ es.map (·.1)) :
    change k f (es ++ [(k, n)]) = (f (some n)).map fun n' => es ++ [(k, n')] := by
  induction es with
  | nil => simp [change]
  | cons e es ih =>
    obtain ⟨k', n'⟩ := e
    simp only [List.map_cons, List.mem_cons, not_or] at h
    rw [List.cons_append, change, if_neg (fun hh => h.1 hh.symm), ih h.2]
    cases f (some n) <;> rfl

theorem changeLast_append (f : Entries → Option Entries) (ts : List Entries) (t : Entries) :
    changeLast f (ts ++ [t]) = (f t).map fun t' => ts ++ [t'] := by
  induction ts with
  | nil => rfl
  | cons a ts ih =>
    cases ts with
    | nil =>
      show (changeLast f [t]).map _ = _
      rw [changeLast]
      cases f t <;> rfl
    | cons b ts =>
      rw [List.cons_append, List.cons_append, changeLast]
      · rw [List.cons_append] at ih
        rw [ih]
        cases f t <;> rfl
      · intro h; cases h

/-- The entries of a table whose values are not tables. -/
def leaves (t : Table) : Entries := t.map fun e => (e.1, .leaf e.2)

/-- The lines `key = value` of a table. -/
def pairs (t : Table) : List Stmt := t.map fun e => .pair [e.1] e.2

theorem keys_leaves (t : Table) : (leaves t).map (·.1) = t.map (·.1) := by
  simp [leaves, Function.comp_def]

/-- Lines fill the table of the header above them. -/
theorem build_pairs {path : List Str} {ctx : Entries → Entries}
    (hctx : ∀ f t, inside f path (ctx t) = (f t).map ctx) (t : Table) (l : List Stmt) (es : Entries)
    (hd : (t.map (·.1)).Nodup) (hes : ∀ k ∈ t.map (·.1), k ∉ es.map (·.1)) :
    build (pairs t ++ l) path (ctx es) = build l path (ctx (es ++ leaves t)) := by
  induction t generalizing es with
  | nil => simp [pairs, leaves]
  | cons e t ih =>
    simp only [List.map_cons, List.nodup_cons] at hd
    show (inside (put [e.1] e.2) path (ctx es)).bind (build (pairs t ++ l) path) = _
    rw [hctx]
    have : put [e.1] e.2 es = some (es ++ [(e.1, .leaf e.2)]) := by
      show change e.1 (newLeaf e.2) es = _
      rw [change_new (hes e.1 (by simp))]
      rfl
    rw [this]
    simp only [Option.map_some, Option.bind_some]
    rw [ih _ hd.2]
    · congr 2
      simp [leaves]
    · intro k hk hmem
      rw [List.map_append, List.mem_append] at hmem
      rcases hmem with hmem | hmem
      · exact hes k (by simp [hk]) hmem
      · simp only [List.map_cons, List.map_nil, List.mem_singleton] at hmem
        exact hd.1 (hmem ▸ hk)

/-- Where an array of tables is: `ctx ts` is the document when its tables are `ts`, `es` the document before the first. -/
structure ItemsAt (path : List Str) (es : Entries) (ctx : List Entries → Entries) : Prop where
  first : header newItem path es = some (ctx [[]])
  more : ∀ ts, header newItem path (ctx ts) = some (ctx (ts ++ [[]]))
  inner : ∀ f ts t, inside f path (ctx (ts ++ [t])) = (f t).map fun t' => ctx (ts ++ [t'])

/-- The lines of an array of tables. -/
def itemLines (path : List Str) (ps : List Table) : List Stmt := ps.flatMap fun t => .item path :: pairs t

/-- What comes next does not belong to the table above. -/
def Free (l : List Stmt) : Prop := ∀ p q es, build l p es = build l q es

theorem free_nil : Free [] := fun _ _ _ => rfl

theorem free_table (k : List Str) (l : List Stmt) : Free (.table k :: l) := fun _ _ _ => rfl

theorem free_items {l : List Stmt} (h : Free l) (path : List Str) (ps : List Table) : Free (itemLines path ps ++ l) := by
  cases ps with
  | nil => exact h
  | cons t ps => exact fun _ _ _ => rfl

private theorem build_more {path : List Str} {es : Entries} {ctx : List Entries → Entries} (h : ItemsAt path es ctx)
    (ps : List Table) (hd : ∀ t ∈ ps, (t.map (·.1)).Nodup) {l : List Stmt} (hl : Free l) (p : List Str)
    (ts : List Entries) : build (itemLines path ps ++ l) p (ctx ts) = build l path (ctx (ts ++ ps.map leaves)) := by
  induction ps generalizing ts p with
  | nil =>
    rw [List.map_nil, List.append_nil]
    exact hl p path _
  | cons t ps ih =>
    show (header newItem path (ctx ts)).bind (build (pairs t ++ itemLines path ps ++ l) path) = _
    rw [h.more]
    simp only [Option.bind_some]
    rw [List.append_assoc, build_pairs (ctx := fun t => ctx (ts ++ [t])) (fun f t => h.inner f ts t) t _ []
      (hd t (by simp)) (by simp), ih (fun t ht => hd t (by simp [ht]))]
    simp

/-- Headers of an array of tables and the lines below them. -/
theorem build_items {path : List Str} {es : Entries} {ctx : List Entries → Entries} (h : ItemsAt path es ctx)
    (ps : List Table) (hd : ∀ t ∈ ps, (t.map (·.1)).Nodup) {l : List Stmt} (hl : Free l) (p : List Str) :
    build (itemLines path ps ++ l) p es = build l p (if ps.isEmpty then es else ctx (ps.map leaves)) := by
  cases ps with
  | nil => rfl
  | cons t ps =>
    show (header newItem path es).bind (build (pairs t ++ itemLines path ps ++ l) path) = _
    rw [h.first]
    simp only [Option.bind_some]
    rw [List.append_assoc]
    rw [show build (pairs t ++ (itemLines path ps ++ l)) path (ctx [[]]) = _ from
      build_pairs (ctx := fun t => ctx ([] ++ [t])) (fun f t => h.inner f [] t) t _ [] (hd t (by simp)) (by simp),
      build_more h ps (fun t ht => hd t (by simp [ht])) hl]
    exact hl _ _ _

/-- An array of tables at the top of a document. -/
theorem itemsAt_top {k : Str} {es : Entries} (h : k ∉ es.map (·.1)) :
    ItemsAt [k] es fun ts => es ++ [(k, .items ts)] := by
  refine ⟨?_, ?_, ?_⟩
  · show change k newItem es = _
    rw [change_new h]; rfl
  · intro ts
    show change k newItem (es ++ [(k, .items ts)]) = _
    rw [change_there h]; rfl
  · intro f ts t
    show change k (onWay (inside f [])) (es ++ [(k, .items (ts ++ [t]))]) = _
    rw [change_there h]
    show ((changeLast f (ts ++ [t])).map Node.items).map _ = _
    rw [changeLast_append]
    cases f t <;> rfl

/-- An array of tables in a table of the document. -/
theorem itemsAt_in {k j : Str} {es : Entries} (h : k ∉ es.map (·.1)) :
    ItemsAt [k, j] es fun ts => es ++ [(k, .tbl .super [(j, .items ts)])] := by
  refine ⟨?_, ?_, ?_⟩
  · show change k (onWay (header newItem [j])) es = _
    rw [change_new h]; rfl
  · intro ts
    show change k (onWay (header newItem [j])) (es ++ [(k, .tbl .super [(j, .items ts)])]) = _
    rw [change_there h]
    show ((change j newItem ([] ++ [(j, .items ts)])).map _).map _ = _
    rw [change_there (by simp)]; rfl
  · intro f ts t
    show change k (onWay (inside f [j])) (es ++ [(k, .tbl .super [(j, .items (ts ++ [t]))])]) = _
    rw [change_there h]
    show ((change j (onWay f) ([] ++ [(j, .items (ts ++ [t]))])).map _).map _ = _
    rw [change_there (by simp)]
    show ((((changeLast f (ts ++ [t])).map Node.items).map _).map _).map _ = _
    rw [changeLast_append]
    cases f t <;> rfl

/-- A table of the document. -/
theorem build_table {k : Str} {es : Entries} (h : k ∉ es.map (·.1)) (t : Table) (hd : (t.map (·.1)).Nodup) (p : List Str) :
    build (.table [k] :: pairs t) p es = some (es ++ [(k, .tbl .header (leaves t))]) := by
  show (change k newTable es).bind (build (pairs t) [k]) = _
  rw [change_new h]
  have := build_pairs (path := [k]) (ctx := fun t => es ++ [(k, .tbl .header t)]) (by
    intro f t
    show change k (onWay f) _ = _
    rw [change_there h]
    show ((f t).map _).map _ = _
    cases f t <;> rfl) t [] [] hd (by simp)
  rw [List.append_nil, List.nil_append] at this
  exact this

theorem entriesValue_append (a b : Entries) : entriesValue (a ++ b) = entriesValue a ++ entriesValue b := by
  induction a with
  | nil => simp [entriesValue]
  | cons e a ih =>
    obtain ⟨k, n⟩ := e
    simp [entriesValue, ih]

theorem entriesValue_leaves (t : Table) : entriesValue (leaves t) = t := by
  induction t with
  | nil => simp [leaves, entriesValue]
  | cons e t ih =>
    have : leaves (e :: t) = (e.1, .leaf e.2) :: leaves t := rfl
    rw [this, entriesValue, ih, Node.value]

theorem itemsValue_leaves (ps : List Table) : itemsValue (ps.map leaves) = ps.map .table := by
  induction ps with
  | nil => simp [itemsValue]
  | cons t ps ih => simp [itemsValue, ih, entriesValue_leaves]

end Verif.Toml
