import Verif.Spec.CvssListing
import Verif.Props.CvssText
import Mathlib.Data.List.Perm.Basic
import Mathlib.Data.List.Dedup

/-!
# C78: what `metrics()` lists
-/

namespace Verif.Cvss

open List Spec

/-! ## One scheme -/

/-- The listing of a vector whose rows list every metric under its own label. -/
theorem filterMap_rows {S : Scheme} (debug : (m : S.M) → S.Val m → Str) (rows : List (S.M × S.M))
    (hd : ∀ r ∈ rows, r.1 = r.2) (v : S.Metrics) :
    (rows.filterMap fun r => (v r.2).map fun x => (r.1, debug r.2 x))
      = (Scheme.entries (rows.map Prod.snd) v).map fun e => (e.1, debug e.1 e.2) := by
  induction rows with
  | nil => rfl
  | cons r rows ih =>
    have ih := ih fun r hr => hd r (mem_cons_of_mem _ hr)
    have hr := hd r mem_cons_self
    unfold Scheme.entries at ih ⊢
    rw [map_cons, filterMap_cons, filterMap_cons]
    cases hv : v r.2 with
    | none => simp only [Option.map_none]; exact ih
    | some x =>
      simp only [Option.map_some, map_cons]
      rw [ih, hr]

/-- The parts of a text, in the order of a listing. -/
theorem parts_in_order {S : Scheme} {same : Str → Str → Prop} {parts : List Str} {v : S.Metrics}
    (hg : Gives same parts v) {order : List S.M} (hall : ∀ m, m ∈ order) (hnd : order.Nodup) :
    ∃ parts', parts'.Perm parts
      ∧ Forall₂ (fun t (e : S.Entry) => same t (S.name e.1 ++ ':' :: S.asStr e.1 e.2)) parts'
          (Scheme.entries order v) := by
  obtain ⟨es, h1, h2, h3⟩ := hg
  have hperm : es.Perm (Scheme.entries order v) := by
    apply (perm_ext_iff_of_nodup (Nodup.of_map _ h2) (Nodup.of_map _ (Scheme.entries_nodup hnd v))).mpr
    rintro ⟨m, x⟩
    exact (h3 m x).symm.trans (Scheme.mem_entries hall v m x)
  have : (Relation.Comp (Forall₂ fun t (e : S.Entry) => same t (S.name e.1 ++ ':' :: S.asStr e.1 e.2)) Perm) parts
      (Scheme.entries order v) := ⟨es, h1, hperm⟩
  rw [forall₂_comp_perm_eq_perm_comp_forall₂] at this
  obtain ⟨p, hp, hf⟩ := this
  exact ⟨p, hp.symm, hf⟩

/-- The parts of a text have no `/`. -/
theorem upper_parts_clean {S : Scheme} (hf : S.fold = upper) (L : S.Lawful) {parts : List Str} {v : S.Metrics}
    (hg : Gives SameLetters parts v) : ∀ q ∈ parts, '/' ∉ q := by
  intro q hq
  obtain ⟨cs, rfl, hcl, -⟩ := ((reads_iff_upper hf _ _).mpr hg).ok L
  obtain ⟨c, hc, rfl⟩ := mem_map.mp hq
  have := hcl c hc
  simp only [mem_append, mem_cons, not_or]
  exact ⟨this.2.2.1, by decide, this.2.2.2⟩

/-! ## The tables -/

theorem V2.glossary : ∀ (m : V2.MetricType) (x : m.Val), ∃ g ∈ glossary2, ∃ v ∈ g.values,
    m.name = g.abbr.toList ∧ m.description = g.name.toList ∧ m.debug x = v.2.toList ∧ m.asStr x = v.1.toList := by
  intro m x
  cases m <;> cases x <;> decide +kernel

theorem V3.glossary : ∀ (m : V3.MetricType) (x : m.Val), ∃ g ∈ glossary3, ∃ v ∈ g.values,
    m.name = g.abbr.toList ∧ m.description = g.name.toList ∧ m.debug x = v.2.toList ∧ m.asStr x = v.1.toList := by
  intro m x
  cases m <;> cases x <;> decide +kernel

theorem V4.glossary : ∀ (m : V4.MetricType) (x : m.Val), ∃ g ∈ glossary4, ∃ v ∈ g.values,
    m.name = g.abbr.toList ∧ m.description = g.name.toList ∧ m.debug x = v.2.toList ∧ m.asStr x = v.1.toList := by
  intro m x
  cases m <;> cases x <;> decide +kernel

/-! ## V2 -/

theorem V2.listed_eq (v : V2.scheme.Metrics) :
    V2.listed v = (Scheme.entries (S := V2.scheme) (V2.listRows.map Prod.snd) v).map fun e => (e.1, V2.MetricType.debug e.1 e.2) :=
  filterMap_rows (S := V2.scheme) V2.MetricType.debug V2.listRows (by decide) v

theorem V2.rows_all : ∀ m : V2.MetricType, m ∈ V2.listRows.map Prod.snd := by
  intro m
  cases m <;> decide

theorem V2.listed_nodup (v : V2.scheme.Metrics) : ((V2.listed v).map Prod.fst).Nodup := by
  rw [V2.listed_eq, map_map]
  exact Scheme.entries_nodup (S := V2.scheme) (by decide) v

/-- **C78** (V2) A metric is listed with some text exactly when the vector has it, and the text is that of its value. -/
theorem C78_exact_v2 (v : V2.scheme.Metrics) (m : V2.MetricType) (t : Str) :
    (m, t) ∈ V2.listed v ↔ ∃ x, v m = some x ∧ t = m.debug x := by
  rw [V2.listed_eq, mem_map]
  constructor
  · rintro ⟨⟨m', x⟩, he, h⟩
    cases h
    exact ⟨x, (Scheme.mem_entries V2.rows_all v _ x).mpr he, rfl⟩
  · rintro ⟨x, hx, rfl⟩
    exact ⟨⟨m, x⟩, (Scheme.mem_entries V2.rows_all v m x).mp hx, rfl⟩

theorem V2.debug_injective : ∀ (m : V2.MetricType) (x y : m.Val), m.debug x = m.debug y → x = y := by
  intro m x y
  cases m <;> cases x <;> cases y <;> decide

/-- **C78** (V2) The listing determines the metrics: two vectors with the same listing have the same metrics. -/
theorem C78_determines_v2 (v w : V2.scheme.Metrics) (h : ∀ p, p ∈ V2.listed v ↔ p ∈ V2.listed w) : v = w := by
  have half : ∀ (v w : V2.scheme.Metrics), (∀ p, p ∈ V2.listed v → p ∈ V2.listed w) → ∀ m x, v m = some x → w m = some x := by
    intro v w h m x hx
    obtain ⟨y, hy, he⟩ := (C78_exact_v2 w m _).mp (h (m, m.debug x) ((C78_exact_v2 v m _).mpr ⟨x, hx, rfl⟩))
    rw [V2.debug_injective m x y he]
    exact hy
  funext m
  cases hv : v m with
  | some x => exact (half v w (fun p => (h p).mp) m x hv).symm
  | none =>
    cases hw : w m with
    | none => rfl
    | some y => rw [half w v (fun p => (h p).mpr) m y hw] at hv; cases hv

theorem V2.listing {same : Str → Str → Prop} {parts : List Str} {v : V2.scheme.Metrics} (hg : Gives same parts v) :
    ∃ parts', parts'.Perm parts ∧ Forall₂ (fun t (p : V2.MetricType × Str) => Says glossary2 same t p.1.name p.1.description p.2)
      parts' (V2.listed v) := by
  obtain ⟨ps, hp, hf⟩ := parts_in_order hg V2.rows_all (by decide)
  refine ⟨ps, hp, ?_⟩
  rw [V2.listed_eq, forall₂_map_right_iff]
  refine hf.imp ?_
  rintro t ⟨m, x⟩ hs
  obtain ⟨g, hg, v, hv, e1, e2, e3, e4⟩ := V2.glossary m x
  exact ⟨g, hg, v, hv, e1, e2, e3, by rw [← e1, ← e4]; exact hs⟩

/-! ## V3 -/

theorem V3.listed_eq (v : V3.scheme.Metrics) :
    V3.listed v = (Scheme.entries (S := V3.scheme) (V3.listRows.map Prod.snd) v).map fun e => (e.1, V3.MetricType.debug e.1 e.2) :=
  filterMap_rows (S := V3.scheme) V3.MetricType.debug V3.listRows (by decide) v

theorem V3.rows_all : ∀ m : V3.MetricType, m ∈ V3.listRows.map Prod.snd := by
  intro m
  cases m <;> decide

theorem V3.listed_nodup (v : V3.scheme.Metrics) : ((V3.listed v).map Prod.fst).Nodup := by
  rw [V3.listed_eq, map_map]
  exact Scheme.entries_nodup (S := V3.scheme) (by decide) v

/-- **C78** (V3) A metric is listed with some text exactly when the vector has it, and the text is that of its value. -/
theorem C78_exact_v3 (v : V3.scheme.Metrics) (m : V3.MetricType) (t : Str) :
    (m, t) ∈ V3.listed v ↔ ∃ x, v m = some x ∧ t = m.debug x := by
  rw [V3.listed_eq, mem_map]
  constructor
  · rintro ⟨⟨m', x⟩, he, h⟩
    cases h
    exact ⟨x, (Scheme.mem_entries V3.rows_all v _ x).mpr he, rfl⟩
  · rintro ⟨x, hx, rfl⟩
    exact ⟨⟨m, x⟩, (Scheme.mem_entries V3.rows_all v m x).mp hx, rfl⟩

theorem V3.debug_injective : ∀ (m : V3.MetricType) (x y : m.Val), m.debug x = m.debug y → x = y := by
  intro m x y
  cases m <;> cases x <;> cases y <;> decide

/-- **C78** (V3) The listing determines the metrics: two vectors with the same listing have the same metrics. -/
theorem C78_determines_v3 (v w : V3.scheme.Metrics) (h : ∀ p, p ∈ V3.listed v ↔ p ∈ V3.listed w) : v = w := by
  have half : ∀ (v w : V3.scheme.Metrics), (∀ p, p ∈ V3.listed v → p ∈ V3.listed w) → ∀ m x, v m = some x → w m = some x := by
    intro v w h m x hx
    obtain ⟨y, hy, he⟩ := (C78_exact_v3 w m _).mp (h (m, m.debug x) ((C78_exact_v3 v m _).mpr ⟨x, hx, rfl⟩))
    rw [V3.debug_injective m x y he]
    exact hy
  funext m
  cases hv : v m with
  | some x => exact (half v w (fun p => (h p).mp) m x hv).symm
  | none =>
    cases hw : w m with
    | none => rfl
    | some y => rw [half w v (fun p => (h p).mpr) m y hw] at hv; cases hv

theorem V3.listing {same : Str → Str → Prop} {parts : List Str} {v : V3.scheme.Metrics} (hg : Gives same parts v) :
    ∃ parts', parts'.Perm parts ∧ Forall₂ (fun t (p : V3.MetricType × Str) => Says glossary3 same t p.1.name p.1.description p.2)
      parts' (V3.listed v) := by
  obtain ⟨ps, hp, hf⟩ := parts_in_order hg V3.rows_all (by decide)
  refine ⟨ps, hp, ?_⟩
  rw [V3.listed_eq, forall₂_map_right_iff]
  refine hf.imp ?_
  rintro t ⟨m, x⟩ hs
  obtain ⟨g, hg, v, hv, e1, e2, e3, e4⟩ := V3.glossary m x
  exact ⟨g, hg, v, hv, e1, e2, e3, by rw [← e1, ← e4]; exact hs⟩

/-! ## V4 -/

theorem V4.listed_eq (v : V4.scheme.Metrics) :
    V4.listed v = (Scheme.entries (S := V4.scheme) (V4.listRows.map Prod.snd) v).map fun e => (e.1, V4.MetricType.debug e.1 e.2) :=
  filterMap_rows (S := V4.scheme) V4.MetricType.debug V4.listRows (by decide) v

theorem V4.rows_all : ∀ m : V4.MetricType, m ∈ V4.listRows.map Prod.snd := by
  intro m
  cases m <;> decide

theorem V4.listed_nodup (v : V4.scheme.Metrics) : ((V4.listed v).map Prod.fst).Nodup := by
  rw [V4.listed_eq, map_map]
  exact Scheme.entries_nodup (S := V4.scheme) (by decide) v

/-- **C78** (V4) A metric is listed with some text exactly when the vector has it, and the text is that of its value. -/
theorem C78_exact_v4 (v : V4.scheme.Metrics) (m : V4.MetricType) (t : Str) :
    (m, t) ∈ V4.listed v ↔ ∃ x, v m = some x ∧ t = m.debug x := by
  rw [V4.listed_eq, mem_map]
  constructor
  · rintro ⟨⟨m', x⟩, he, h⟩
    cases h
    exact ⟨x, (Scheme.mem_entries V4.rows_all v _ x).mpr he, rfl⟩
  · rintro ⟨x, hx, rfl⟩
    exact ⟨⟨m, x⟩, (Scheme.mem_entries V4.rows_all v m x).mp hx, rfl⟩

theorem V4.debug_injective : ∀ (m : V4.MetricType) (x y : m.Val), m.debug x = m.debug y → x = y := by
  intro m x y
  cases m <;> cases x <;> cases y <;> decide

/-- **C78** (V4) The listing determines the metrics: two vectors with the same listing have the same metrics. -/
theorem C78_determines_v4 (v w : V4.scheme.Metrics) (h : ∀ p, p ∈ V4.listed v ↔ p ∈ V4.listed w) : v = w := by
  have half : ∀ (v w : V4.scheme.Metrics), (∀ p, p ∈ V4.listed v → p ∈ V4.listed w) → ∀ m x, v m = some x → w m = some x := by
    intro v w h m x hx
    obtain ⟨y, hy, he⟩ := (C78_exact_v4 w m _).mp (h (m, m.debug x) ((C78_exact_v4 v m _).mpr ⟨x, hx, rfl⟩))
    rw [V4.debug_injective m x y he]
    exact hy
  funext m
  cases hv : v m with
  | some x => exact (half v w (fun p => (h p).mp) m x hv).symm
  | none =>
    cases hw : w m with
    | none => rfl
    | some y => rw [half w v (fun p => (h p).mpr) m y hw] at hv; cases hv

theorem V4.listing {same : Str → Str → Prop} {parts : List Str} {v : V4.scheme.Metrics} (hg : Gives same parts v) :
    ∃ parts', parts'.Perm parts ∧ Forall₂ (fun t (p : V4.MetricType × Str) => Says glossary4 same t p.1.name p.1.description p.2)
      parts' (V4.listed v) := by
  obtain ⟨ps, hp, hf⟩ := parts_in_order hg V4.rows_all (by decide)
  refine ⟨ps, hp, ?_⟩
  rw [V4.listed_eq, forall₂_map_right_iff]
  refine hf.imp ?_
  rintro t ⟨m, x⟩ hs
  obtain ⟨g, hg, v, hv, e1, e2, e3, e4⟩ := V4.glossary m x
  exact ⟨g, hg, v, hv, e1, e2, e3, by rw [← e1, ← e4]; exact hs⟩

/-! ## All versions -/

theorem Forall₂.map_listed {α β : Type} {R : Str → β × Str → Prop} {R' : Str → α × Str → Prop} {f : β → α}
    (h : ∀ t p, R t p → R' t (f p.1, p.2)) {ts : List Str} {l : List (β × Str)} (hf : Forall₂ R ts l) :
    Forall₂ R' ts (l.map fun p => (f p.1, p.2)) := by
  rw [forall₂_map_right_iff]
  exact hf.imp fun t p => h t p

/-- **C78** The metrics listed for a parsed vector are exactly those its text gives: taken in a suitable order, the
components of the text say, in the words of the CVSS documents, what the entries of the listing say one by one. -/
theorem C78_listing (s : Str) (c : Cvss) (h : Cvss.fromStr s = .ok c) :
    ∃ parts, parts.Perm (metricParts c s) ∧
      Forall₂ (fun part (entry : MetricType × Str) =>
        Says (glossaryOf c) (sameIn c) part entry.1.name entry.1.description entry.2) parts c.listed := by
  have hp := (C59_parse_iff s c).mp h
  cases c with
  | v20 v =>
    obtain ⟨hb, parts, rfl, hg⟩ := (C34_parse_iff _ _).mp hp
    obtain ⟨ps, hperm, hf⟩ := V2.listing hg
    refine ⟨ps, ?_, Forall₂.map_listed (fun t p h => h) hf⟩
    unfold metricParts
    rw [splitC_joinC (V2.parts_ne hb hg) (V2.parts_clean hg)]
    exact hperm
  | v30 b =>
    obtain ⟨hle, parts, rfl, hg⟩ := (C33_parse_iff _ _).mp hp.1
    obtain ⟨ps, hperm, hf⟩ := V3.listing hg
    refine ⟨ps, ?_, Forall₂.map_listed (fun t p h => h) hf⟩
    unfold metricParts
    rw [splitC_joinC (by simp) (by
      intro q hq
      rcases mem_cons.mp hq with rfl | hq
      · rw [hp.2.1]; decide +kernel
      · exact upper_parts_clean rfl V3.lawful hg q hq)]
    exact hperm
  | v31 b =>
    obtain ⟨hle, parts, rfl, hg⟩ := (C33_parse_iff _ _).mp hp.1
    obtain ⟨ps, hperm, hf⟩ := V3.listing hg
    refine ⟨ps, ?_, Forall₂.map_listed (fun t p h => h) hf⟩
    unfold metricParts
    rw [splitC_joinC (by simp) (by
      intro q hq
      rcases mem_cons.mp hq with rfl | hq
      · rw [hp.2.1]; decide +kernel
      · exact upper_parts_clean rfl V3.lawful hg q hq)]
    exact hperm
  | v40 v =>
    obtain ⟨hle, hb, parts, rfl, hg⟩ := (C35_parse_iff _ _).mp hp
    obtain ⟨ps, hperm, hf⟩ := V4.listing hg
    refine ⟨ps, ?_, Forall₂.map_listed (fun t p h => h) hf⟩
    unfold metricParts
    rw [splitC_joinC (by simp) (by
      intro q hq
      rcases mem_cons.mp hq with rfl | hq
      · decide +kernel
      · exact upper_parts_clean rfl V4.lawful hg q hq)]
    exact hperm

/-- **C78** No metric is listed twice, for any vector. -/
theorem C78_once (c : Cvss) : (c.listed.map Prod.fst).Nodup := by
  have key : ∀ {β : Type} (f : β → MetricType) (l : List (β × Str)), Function.Injective f → (l.map Prod.fst).Nodup →
      ((l.map fun p => (f p.1, p.2)).map Prod.fst).Nodup := by
    intro β f l hf hn
    have : (l.map fun p => (f p.1, p.2)).map Prod.fst = (l.map Prod.fst).map f := by
      rw [map_map, map_map]; rfl
    rw [this]
    exact hn.map hf
  cases c with
  | v20 v => exact key _ _ (fun _ _ h => MetricType.v2.inj h) (V2.listed_nodup _)
  | v30 b => exact key _ _ (fun _ _ h => MetricType.v3.inj h) (V3.listed_nodup _)
  | v31 b => exact key _ _ (fun _ _ h => MetricType.v3.inj h) (V3.listed_nodup _)
  | v40 v => exact key _ _ (fun _ _ h => MetricType.v4.inj h) (V4.listed_nodup _)

theorem v4_name_injective (a b : V4.MetricType) (h : (MetricType.v4 a).name = (MetricType.v4 b).name) : a = b := by
  have : ∀ a ∈ V4.MetricType.all, ∀ b ∈ V4.MetricType.all, (MetricType.v4 a).name = (MetricType.v4 b).name → a = b := by
    decide +kernel
  exact this a (V4.MetricType.mem_all a) b (V4.MetricType.mem_all b) h

theorem v4_description_injective (a b : V4.MetricType) (h : (MetricType.v4 a).description = (MetricType.v4 b).description) :
    a = b := by
  have : ∀ a ∈ V4.MetricType.all, ∀ b ∈ V4.MetricType.all,
      (MetricType.v4 a).description = (MetricType.v4 b).description → a = b := by
    decide +kernel
  exact this a (V4.MetricType.mem_all a) b (V4.MetricType.mem_all b) h

/-- **C78** Names and descriptions tell the metrics of one vector apart. -/
theorem C78_names (c : Cvss) : (c.listed.map fun e => e.1.name).Nodup ∧ (c.listed.map fun e => e.1.description).Nodup := by
  have key : ∀ {β : Type} (f : β → MetricType) (l : List (β × Str)) (txt : MetricType → Str),
      (∀ a b, txt (f a) = txt (f b) → a = b) → (l.map Prod.fst).Nodup →
      ((l.map fun p => (f p.1, p.2)).map fun e => txt e.1).Nodup := by
    intro β f l txt hf hn
    have : (l.map fun p => (f p.1, p.2)).map (fun e => txt e.1) = (l.map Prod.fst).map fun a => txt (f a) := by
      rw [map_map, map_map]; rfl
    rw [this]
    exact hn.map fun a b h => hf a b h
  cases c with
  | v20 v =>
    exact ⟨key _ _ _ (fun a b => by cases a <;> cases b <;> decide +kernel) (V2.listed_nodup _),
      key _ _ _ (fun a b => by cases a <;> cases b <;> decide +kernel) (V2.listed_nodup _)⟩
  | v30 v =>
    exact ⟨key _ _ _ (fun a b => by cases a <;> cases b <;> decide +kernel) (V3.listed_nodup _),
      key _ _ _ (fun a b => by cases a <;> cases b <;> decide +kernel) (V3.listed_nodup _)⟩
  | v31 v =>
    exact ⟨key _ _ _ (fun a b => by cases a <;> cases b <;> decide +kernel) (V3.listed_nodup _),
      key _ _ _ (fun a b => by cases a <;> cases b <;> decide +kernel) (V3.listed_nodup _)⟩
  | v40 v =>
    exact ⟨key _ _ _ v4_name_injective (V4.listed_nodup _), key _ _ _ v4_description_injective (V4.listed_nodup _)⟩

/-- The text of the example below. -/
def listedText : Str := "CVSS:3.1/S:c/av:N/AC:L".toList

/-- What the example lists. -/
def listedHere : List (MetricType × Str) :=
  [(.v3 .AV, "Network".toList), (.v3 .AC, "Low".toList), (.v3 .S, "Changed".toList)]

/-- Whether a text parses and lists the given entries. -/
def listsAs (s : Str) (l : List (MetricType × Str)) : Bool :=
  match Cvss.fromStr s with
  | .ok c => c.listed = l
  | .err | .panic => false

/-- A text in mixed case and unusual order parses, and lists its three metrics in words. -/
example : listsAs listedText listedHere = true := by decide +kernel

/-- So do texts of the other versions. -/
example : listsAs "AV:N/AC:L/Au:N/C:N/I:N/A:C/E:POC".toList
    [(.v2 .AC, "Low".toList), (.v2 .Au, "None".toList), (.v2 .AV, "Network".toList), (.v2 .C, "None".toList),
      (.v2 .I, "None".toList), (.v2 .A, "Complete".toList), (.v2 .E, "ProofOfConcept".toList)] = true := by
  decide +kernel

example : listsAs "CVSS:4.0/AV:N/AC:H/AT:N/PR:L/UI:N/VC:L/VI:L/VA:N/SC:N/SI:N/SA:N/U:red".toList
    [(.v4 .AC, "High".toList), (.v4 .AT, "None".toList), (.v4 .AV, "Network".toList), (.v4 .PR, "Low".toList),
      (.v4 .SA, "None".toList), (.v4 .SC, "None".toList), (.v4 .SI, "None".toList), (.v4 .UI, "None".toList),
      (.v4 .VA, "None".toList), (.v4 .VC, "Low".toList), (.v4 .VI, "Low".toList), (.v4 .U, "Red".toList)] = true := by
  decide +kernel

end Verif.Cvss
