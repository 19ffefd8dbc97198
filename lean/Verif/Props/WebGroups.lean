import Verif.Spec.Web
import Verif.Lemmas.Upsert
import Verif.Props.SyncText

/-!
# C70: groups of advisories
-/

namespace Verif.Props

open Verif.Adv Verif.Web Verif.Git Verif.Export Verif.Lock Verif.Sync Verif.Spec

/-! ### The model's loops as groupings -/

theorem addSub_eq (title key : Str) (e : Data × Str) (l : List Sub) :
    addSub title key e l = upsert Sub.groupBy key ⟨title, key, [e]⟩ (fun s => { s with entries := s.entries ++ [e] }) l := by
  induction l with
  | nil => rfl
  | cons s ss ih => unfold addSub upsert; rw [ih]

theorem addCount_eq (key url : Str) (l : List ListItem) :
    addCount key url l = upsert ListItem.name key ⟨key, url, some 1⟩ (fun i => { i with count := i.count.map (· + 1) }) l := by
  induction l with
  | nil => rfl
  | cons s ss ih => unfold addCount upsert; rw [ih]

theorem addItem_eq (key url : Str) (l : List ListItem) :
    addItem key url l = upsert ListItem.name key ⟨key, url, none⟩ id l := by
  induction l with
  | nil => rfl
  | cons s ss ih =>
    unfold addItem at ih ⊢
    unfold upsert
    rw [← ih, List.any_cons]
    by_cases h : s.name = key
    · simp [h]
    · simp only [h, decide_false, Bool.false_or, if_false]
      split <;> rfl

theorem addId_eq (key : Str) (x : Id) (l : List (Str × List Id)) :
    addId key x l = upsert Prod.fst key (key, [x]) (fun e => (e.1, e.2 ++ [x])) l := by
  induction l with
  | nil => rfl
  | cons s ss ih => unfold addId upsert; rw [ih]

/-- The pairs of keys and entries. -/
def keyed {β : Type} (keys : Data → List Str) (f : Data → β) (ds : List Data) : List (Str × β) :=
  ds.flatMap fun d => (keys d).map fun k => (k, f d)

theorem foldl_keyed {β σ : Type} (keys : Data → List Str) (f : Data → β) (g : σ → Str × β → σ) (ds : List Data) (s : σ) :
    (keyed keys f ds).foldl g s = ds.foldl (fun s d => (keys d).foldl (fun s k => g s (k, f d)) s) s := by
  induction ds generalizing s with
  | nil => rfl
  | cons d ds ih =>
    have : keyed keys f (d :: ds) = (keys d).map (fun k => (k, f d)) ++ keyed keys f ds := rfl
    rw [this, List.foldl_append, ih, List.foldl_cons, List.foldl_map]

theorem valuesOf_keyed {β : Type} (keys : Data → List Str) (f : Data → β) (ds : List Data) (k : Str) :
    valuesOf (keyed keys f ds) k = ds.flatMap fun d => List.replicate ((keys d).count k) (f d) := by
  induction ds with
  | nil => rfl
  | cons d ds ih =>
    have : keyed keys f (d :: ds) = (keys d).map (fun k => (k, f d)) ++ keyed keys f ds := rfl
    unfold valuesOf at ih ⊢
    rw [this, List.filter_append, List.map_append, ih, List.flatMap_cons]
    congr 1
    generalize keys d = ks
    induction ks with
    | nil => rfl
    | cons x ks ih2 =>
      rw [List.map_cons, List.filter_cons, List.count_cons]
      by_cases h : x = k
      · simp only [h, decide_true, if_true, List.map_cons, BEq.rfl, List.replicate_succ, ih2]
      · rw [if_neg (by simpa using h), ih2, if_neg (by simpa using h)]; rfl

theorem valuesOf_keyed_nodup {β : Type} (keys : Data → List Str) (f : Data → β) (ds : List Data) (k : Str)
    (h : ∀ d ∈ ds, (keys d).Nodup) :
    valuesOf (keyed keys f ds) k = (ds.filter fun d => decide (k ∈ keys d)).map f := by
  rw [valuesOf_keyed]
  induction ds with
  | nil => rfl
  | cons d ds ih =>
    rw [List.flatMap_cons, ih fun d hd => h d (List.mem_cons_of_mem _ hd), List.filter_cons]
    by_cases hk : k ∈ keys d
    · rw [List.count_eq_one_of_mem (h d List.mem_cons_self) hk, if_pos (by simpa using hk)]; rfl
    · rw [List.count_eq_zero_of_not_mem hk, if_neg (by simpa using hk)]; rfl

/-- The groups of a fold with `addSub`. -/
theorem mem_subs (T : Str → Str) (keys : Data → List Str) (ds : List Data) (s : Sub) :
    s ∈ ds.foldl (fun gs d => (keys d).foldl (fun gs k => addSub (T k) k (entryOf d) gs) gs) [] ↔
      s.title = T s.groupBy ∧ s.entries = valuesOf (keyed keys entryOf ds) s.groupBy ∧ s.entries ≠ [] := by
  have e : ds.foldl (fun gs d => (keys d).foldl (fun gs k => addSub (T k) k (entryOf d) gs) gs) [] =
      groupAll Sub.groupBy (fun k e => ⟨T k, k, [e]⟩) (fun e s => { s with entries := s.entries ++ [e] })
        (keyed keys entryOf ds) := by
    unfold groupAll
    rw [foldl_keyed]
    simp only [addSub_eq]
  have hf : ∀ (bs : List (Data × Str)) (s : Sub), bs.foldl (fun (s : Sub) e => { s with entries := s.entries ++ [e] }) s =
      { s with entries := s.entries ++ bs } := by
    intro bs
    induction bs with
    | nil => intro s; simp
    | cons b bs ih => intro s; rw [List.foldl_cons, ih]; simp
  have hm := mem_groupAll Sub.groupBy (fun k e => (⟨T k, k, [e]⟩ : Sub))
    (fun e s => { s with entries := s.entries ++ [e] }) (fun _ _ => rfl) (fun _ _ => rfl) (keyed keys entryOf ds)
  rw [e, hm.2 s]
  constructor
  · rintro ⟨b, bs, h1, h2⟩
    rw [hf] at h2
    have ht : s.title = T s.groupBy := by rw [h2]
    have he : s.entries = b :: bs := by rw [h2]; rfl
    exact ⟨ht, by rw [h1, he], by rw [he]; simp⟩
  · rintro ⟨h1, h2, h3⟩
    cases he : s.entries with
    | nil => exact absurd he h3
    | cons b bs =>
      refine ⟨b, bs, by rw [← h2, he], ?_⟩
      rw [hf]
      cases s
      simp_all

/-- The items of a fold with `addItem`. -/
theorem mem_items (U : Str → Str) (keys : Data → List Str) (ds : List Data) :
    ((ds.foldl (fun is d => (keys d).foldl (fun is k => addItem k (U k) is) is) []).map ListItem.name).Nodup ∧
    ∀ i, i ∈ ds.foldl (fun is d => (keys d).foldl (fun is k => addItem k (U k) is) is) [] ↔
      i = ⟨i.name, U i.name, none⟩ ∧ ∃ d ∈ ds, i.name ∈ keys d := by
  have e : ds.foldl (fun is d => (keys d).foldl (fun is k => addItem k (U k) is) is) [] =
      groupAll ListItem.name (fun k (_ : Unit) => ⟨k, U k, none⟩) (fun _ i => i) (keyed keys (fun _ => ()) ds) := by
    unfold groupAll
    rw [foldl_keyed]
    simp only [addItem_eq]
    rfl
  have hf : ∀ (bs : List Unit) (s : ListItem), bs.foldl (fun (s : ListItem) _ => s) s = s := by
    intro bs
    induction bs with
    | nil => intro s; rfl
    | cons b bs ih => intro s; rw [List.foldl_cons, ih]
  have hm := mem_groupAll ListItem.name (fun k (_ : Unit) => ⟨k, U k, none⟩) (fun _ i => i) (fun _ _ => rfl)
    (fun _ _ => rfl) (keyed keys (fun _ => ()) ds)
  rw [e]
  refine ⟨hm.1, fun i => ?_⟩
  rw [hm.2]
  have hk : (∃ d ∈ ds, i.name ∈ keys d) ↔ (i.name, ()) ∈ keyed keys (fun _ => ()) ds := by
    unfold keyed
    simp only [List.mem_flatMap, List.mem_map, Prod.mk.injEq, and_true, exists_eq_right]
  rw [hk, ← mem_valuesOf]
  constructor
  · rintro ⟨b, bs, h1, h2⟩
    rw [hf] at h2
    exact ⟨h2, by rw [h1]; exact List.mem_cons_self⟩
  · rintro ⟨h1, h2⟩
    cases hv : valuesOf (keyed keys (fun _ => ()) ds) i.name with
    | nil => rw [hv] at h2; cases h2
    | cons b bs => exact ⟨b, bs, rfl, by rw [hf]; exact h1⟩

/-- The counted items. -/
theorem mem_counts (U : Str → Str) (key : Data → Str) (ds : List Data) :
    ((ds.foldl (fun is d => addCount (key d) (U (key d)) is) []).map ListItem.name).Nodup ∧
    ∀ i, i ∈ ds.foldl (fun is d => addCount (key d) (U (key d)) is) [] ↔
      i = ⟨i.name, U i.name, some (ds.countP fun d => decide (key d = i.name))⟩ ∧ ∃ d ∈ ds, key d = i.name := by
  have e : ds.foldl (fun is d => addCount (key d) (U (key d)) is) [] =
      groupAll ListItem.name (fun k (_ : Unit) => ⟨k, U k, some 1⟩) (fun _ i => { i with count := i.count.map (· + 1) })
        (keyed (fun d => [key d]) (fun _ => ()) ds) := by
    unfold groupAll
    rw [foldl_keyed]
    simp only [addCount_eq]
    rfl
  have hf : ∀ (bs : List Unit) (s : ListItem) (n : Nat), s.count = some n →
      bs.foldl (fun (s : ListItem) _ => { s with count := s.count.map (· + 1) }) s =
        { s with count := some (n + bs.length) } := by
    intro bs
    induction bs with
    | nil => intro s n h; rw [List.foldl_nil]; cases s; simp_all
    | cons b bs ih =>
      intro s n h
      rw [List.foldl_cons, ih _ (n + 1) (by rw [h]; rfl), List.length_cons]
      simp only [ListItem.mk.injEq, true_and]
      congr 1; omega
  have hm := mem_groupAll ListItem.name (fun k (_ : Unit) => ⟨k, U k, some 1⟩)
    (fun _ i => { i with count := i.count.map (· + 1) }) (fun _ _ => rfl)
    (fun _ _ => rfl) (keyed (fun d => [key d]) (fun _ => ()) ds)
  rw [e]
  refine ⟨hm.1, fun i => ?_⟩
  rw [hm.2]
  have hv : valuesOf (keyed (fun d => [key d]) (fun _ => ()) ds) i.name =
      (ds.filter fun d => decide (key d = i.name)).map fun _ => () := by
    rw [valuesOf_keyed_nodup _ _ _ _ (fun d _ => by simp)]
    congr 1
    apply List.filter_congr
    intro d _
    simp [eq_comm]
  have hlen : (valuesOf (keyed (fun d => [key d]) (fun _ => ()) ds) i.name).length =
      ds.countP fun d => decide (key d = i.name) := by
    rw [hv, List.length_map, List.countP_eq_length_filter]
  have hne : (∃ d ∈ ds, key d = i.name) ↔ valuesOf (keyed (fun d => [key d]) (fun _ => ()) ds) i.name ≠ [] := by
    rw [hv]
    simp
  rw [hne]
  constructor
  · rintro ⟨b, bs, h1, h2⟩
    rw [hf _ _ 1 rfl] at h2
    refine ⟨?_, by rw [h1]; simp⟩
    rw [← hlen, h1, List.length_cons, Nat.add_comm]
    exact h2
  · rintro ⟨h1, h2⟩
    cases hvs : valuesOf (keyed (fun d => [key d]) (fun _ => ()) ds) i.name with
    | nil => exact absurd hvs h2
    | cons b bs =>
      refine ⟨b, bs, rfl, ?_⟩
      rw [hf _ _ 1 rfl]
      rw [← hlen, hvs, List.length_cons, Nat.add_comm] at h1
      exact h1

/-- The IDs of the search index. -/
theorem mem_searchIds (E : WebEnv) (ds : List Data) :
    ((searchIds E ds).map Prod.fst).Nodup ∧
    ∀ k l, (k, l) ∈ searchIds E ds ↔ l ≠ [] ∧
      l = valuesOf (keyed (fun d => (d.advisory.metadata.aliases ++ d.advisory.metadata.related ++
        [d.advisory.metadata.id]).map fun x => E.lower x.display) (fun d => d.advisory.metadata.id) ds) k := by
  have e : searchIds E ds = groupAll Prod.fst (fun k (x : Id) => (k, [x])) (fun x e => (e.1, e.2 ++ [x]))
      (keyed (fun d => (d.advisory.metadata.aliases ++ d.advisory.metadata.related ++
        [d.advisory.metadata.id]).map fun x => E.lower x.display) (fun d => d.advisory.metadata.id) ds) := by
    unfold groupAll searchIds
    rw [foldl_keyed]
    simp only [addId_eq, List.foldl_map]
  have hf : ∀ (bs : List Id) (s : Str × List Id), bs.foldl (fun (s : Str × List Id) e => (s.1, s.2 ++ [e])) s =
      (s.1, s.2 ++ bs) := by
    intro bs
    induction bs with
    | nil => intro s; simp
    | cons b bs ih => intro s; rw [List.foldl_cons, ih]; simp
  have hm := mem_groupAll Prod.fst (fun k (x : Id) => (k, [x])) (fun x e => (e.1, e.2 ++ [x])) (fun _ _ => rfl)
    (fun _ _ => rfl) (keyed (fun d => (d.advisory.metadata.aliases ++ d.advisory.metadata.related ++
        [d.advisory.metadata.id]).map fun x => E.lower x.display) (fun d => d.advisory.metadata.id) ds)
  rw [e]
  refine ⟨hm.1, fun k l => ?_⟩
  rw [hm.2]
  constructor
  · rintro ⟨b, bs, h1, h2⟩
    rw [hf] at h2
    have : l = b :: bs := (Prod.mk.inj h2).2
    rw [this]
    exact ⟨by simp, h1.symm⟩
  · rintro ⟨h1, h2⟩
    cases l with
    | nil => exact absurd rfl h1
    | cons b bs => exact ⟨b, bs, h2.symm, by rw [hf]; rfl⟩

theorem mem_searchPackages (E : WebEnv) (ds : List Data) (t : Str) :
    t ∈ searchPackages E ds ↔ ∃ d ∈ ds, E.lower (packageOf d) = t := by
  unfold searchPackages packageOf
  induction ds using List.reverseRecOn with
  | nil => simp
  | append_singleton ds d ih =>
    rw [List.foldl_append, List.foldl_cons, List.foldl_nil]
    have : (∃ x ∈ ds ++ [d], E.lower x.advisory.metadata.package = t) ↔
        (∃ x ∈ ds, E.lower x.advisory.metadata.package = t) ∨ E.lower d.advisory.metadata.package = t := by
      simp only [List.mem_append, List.mem_singleton, or_and_right, exists_or, exists_eq_left]
    rw [this, ← ih]
    dsimp only
    split
    · rename_i h
      exact ⟨.inl, fun hx => hx.elim id fun e => by rw [← e]; exact h⟩
    · rw [List.mem_append, List.mem_singleton]
      exact or_congr Iff.rfl eq_comm

end Verif.Props
