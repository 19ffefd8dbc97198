import Verif.Props.Web

/-!
# C70: what the pages show
-/

namespace Verif.Props

open Verif.Adv Verif.Web Verif.Git Verif.Export Verif.Lock Verif.Sync Verif.Spec Std

theorem dated_iff (E : WebEnv) (a : AdvisoryFile) (d : Data) : Data.new E a = .ok d ↔ Dated E a d := by
  unfold Data.new pathOf
  constructor
  · intro h
    cases hc : a.metadata.collection with
    | none => rw [hc] at h; cases h
    | some c =>
      rw [hc] at h
      simp only [Outcome.bind_ok] at h
      split at h
      · rename_i ht
        obtain ⟨created, h1, h⟩ := bindOk h
        obtain ⟨modified, h2, h⟩ := bindOk h
        cases h
        exact ⟨rfl, c, _, hc, rfl, ht, h1, h2⟩
      · cases h
  · rintro ⟨rfl, c, path, hc, rfl, ht, h1, h2⟩
    have h1' : E.exp.modTimes.cdateForPath E.exp.cal E.exp.adv.civil
        (gitPath ⟨c, d.advisory.metadata.package, d.advisory.metadata.id.display ++ ".md".toList⟩) = .ok d.created := h1
    have h2' : E.exp.modTimes.mdateForPath E.exp.cal E.exp.adv.civil
        (gitPath ⟨c, d.advisory.metadata.package, d.advisory.metadata.id.display ++ ".md".toList⟩) = .ok d.modified := h2
    have ht' : E.exp.tracked
        (gitPath ⟨c, d.advisory.metadata.package, d.advisory.metadata.id.display ++ ".md".toList⟩) = true := ht
    rw [hc]
    simp only [Outcome.bind_ok, ht', h1', h2', if_true]

theorem render_eq {E : WebEnv} {as : List AdvisoryFile} {ds : List Data} (hd : List.Forall₂ (Dated E) as ds) :
    renderAdvisories E as = runSteps (steps E ds) := by
  have : Outcome.mapList (Data.new E) as = .ok ds := by
    rw [mapList_iff]
    exact hd.imp fun a d h => (dated_iff E a d).mpr h
  unfold renderAdvisories
  rw [this]

/-! ### Groups -/

theorem bind_page {o : Outcome Unit} {p q : Page} (h : (do o; Outcome.ok p) = .ok q) : q = p := by
  obtain ⟨u, -, h2⟩ := bindOk h
  exact (Outcome.ok.inj h2).symm

theorem sub_page {E : WebEnv} {folder : String} {s : Sub} {page : Page} (h : (subStep E folder s).2 = .ok page) :
    page = .sub s := bind_page h

/-- The pages of a grouping: one for every key, none else. -/
theorem group_file {E : WebEnv} {l : List Step} (folder : String) (gs : List Sub) (k : Str) (T : Str → Str)
    (V : Str → Listing) (hr : (runSteps l).result = .ok ()) (hk : k ≠ "index".toList)
    (hsteps : ∀ o, (htmlFile folder k, o) ∈ l →
      k = "index".toList ∨ ∃ s ∈ gs, s.groupBy = k ∧ o = (subStep E folder s).2)
    (hmem : ∀ s ∈ gs, s.groupBy = k → (htmlFile folder k, (subStep E folder s).2) ∈ l)
    (hgs : ∀ s, s ∈ gs ↔ s.title = T s.groupBy ∧ s.entries = V s.groupBy ∧ s.entries ≠ []) :
    (V k ≠ [] → (runSteps l).file (htmlFile folder k) = some (.sub ⟨T k, k, V k⟩)) ∧
    (V k = [] → (runSteps l).file (htmlFile folder k) = none) := by
  have huniq : ∀ s ∈ gs, s.groupBy = k → s = ⟨T k, k, V k⟩ := by
    intro s hs he
    obtain ⟨h1, h2, -⟩ := (hgs s).mp hs
    cases s
    cases he
    simp_all
  constructor
  · intro hv
    have hs : (⟨T k, k, V k⟩ : Sub) ∈ gs := (hgs _).mpr ⟨rfl, rfl, hv⟩
    obtain ⟨page, hp, hf⟩ := file_some hr (hmem _ hs rfl) (fun o ho => by
      rcases hsteps o ho with h | ⟨s, hs', he, rfl⟩
      · exact absurd h hk
      · rw [huniq s hs' he])
    rw [hf, sub_page hp]
  · intro hv
    refine file_none fun o ho => ?_
    rcases hsteps o ho with h | ⟨s, hs, he, -⟩
    · exact hk h
    · obtain ⟨-, h2, h3⟩ := (hgs s).mp hs
      rw [he] at h2
      exact h3 (h2.trans hv)

theorem flatMap_ne_nil {α β : Type} (f : α → List β) (l : List α) : l.flatMap f ≠ [] ↔ ∃ a ∈ l, f a ≠ [] := by
  rw [Ne, List.flatMap_eq_nil_iff]
  simp

theorem filter_empty {α : Type} (P : α → Bool) (l : List α) : l.filter P ≠ [] ↔ ∃ a ∈ l, P a = true := by
  rw [Ne, List.filter_eq_nil_iff]
  simp

theorem perPackage_mem (ds : List Data) (s : Sub) :
    s ∈ perPackage ds ↔ s.title = "Advisories for package '".toList ++ s.groupBy ++ "'".toList ∧
      s.entries = (ds.filter fun d => decide (packageOf d = s.groupBy)).map entryOf ∧ s.entries ≠ [] := by
  have h := mem_subs (fun k => "Advisories for package '".toList ++ k ++ "'".toList) (fun d => [packageOf d]) ds s
  refine Iff.trans ?_ (h.trans ?_)
  · exact Iff.rfl
  · rw [valuesOf_keyed_nodup _ _ _ _ (fun d _ => by simp)]
    have : (ds.filter fun d => decide (s.groupBy ∈ [packageOf d])) =
        ds.filter fun d => decide (packageOf d = s.groupBy) :=
      List.filter_congr fun d _ => by simp [eq_comm]
    rw [this]

theorem osvOf_ok {E : WebEnv} {d : Data} {o : OsvAdvisory} (h : osvOf E d = .ok o) : RecordOf E d o := by
  unfold osvOf pathOf at h
  cases hc : d.advisory.metadata.collection with
  | none => rw [hc] at h; cases h
  | some c =>
    rw [hc] at h
    simp only [Outcome.bind_ok] at h
    split at h
    · rename_i ht
      exact ⟨c, _, hc, rfl, ht, h⟩
    · cases h

/-- **C70.**  Every package with an advisory has a page with exactly its advisories, the newest first, each with its
title, and a JSON file with their records in the same order; no other package has one.  (The name `index` is taken.) -/
theorem C70_packages (E : WebEnv) (as : List AdvisoryFile) (ds : List Data) (hd : List.Forall₂ (Dated E) as ds)
    (hr : (renderAdvisories E as).result = .ok ()) (p : Str) :
    (p ≠ "index".toList → (∃ d ∈ ds, packageOf d = p) →
      ∃ l, (renderAdvisories E as).file (htmlFile "packages" p) =
          some (.sub ⟨"Advisories for package '".toList ++ p ++ "'".toList, p, l⟩) ∧
        ListsAll (ds.filter fun d => decide (packageOf d = p)) l) ∧
    ((∃ d ∈ ds, packageOf d = p) → ∃ l rs,
        ListsAll (ds.filter fun d => decide (packageOf d = p)) l ∧
        (renderAdvisories E as).file (jsonFile p) = some (.osv rs) ∧
        List.Forall₂ (fun e o => RecordOf E e.1 o) l rs) ∧
    ((∀ d ∈ ds, packageOf d ≠ p) →
      (p ≠ "index".toList → (renderAdvisories E as).file (htmlFile "packages" p) = none) ∧
      (renderAdvisories E as).file (jsonFile p) = none) := by
  rw [render_eq hd] at hr ⊢
  have hmemD : (∃ d ∈ ds, packageOf d = p) ↔
      (newestFirst ds).filter (fun d => decide (packageOf d = p)) ≠ [] := by
    rw [filter_empty]
    simp only [decide_eq_true_eq, (newestFirst_perm ds).mem_iff]
  have hg := fun hp => group_file (E := E) "packages" (perPackage (newestFirst ds)) p
    (fun k => "Advisories for package '".toList ++ k ++ "'".toList)
    (fun k => ((newestFirst ds).filter fun d => decide (packageOf d = k)).map entryOf) hr hp
    (fun o ho => ((steps_packages E ds p o).mp ho).imp (fun h => h.1) id)
    (fun s hs he => (steps_packages E ds p _).mpr (.inr ⟨s, hs, he, rfl⟩))
    (fun s => perPackage_mem (newestFirst ds) s)
  have hs := shows_filter ds fun d => decide (packageOf d = p)
  refine ⟨fun hp hex => ⟨_, (hg hp).1 ?_, hs⟩, fun hex => ?_, fun hno => ⟨fun hp => (hg hp).2 ?_, ?_⟩⟩
  · rw [Ne, List.map_eq_nil_iff]; exact hmemD.mp hex
  · let s : Sub := ⟨"Advisories for package '".toList ++ p ++ "'".toList, p,
      ((newestFirst ds).filter fun d => decide (packageOf d = p)).map entryOf⟩
    have hmem : s ∈ perPackage (newestFirst ds) :=
      (perPackage_mem _ s).mpr ⟨rfl, rfl, by show List.map _ _ ≠ []; rw [Ne, List.map_eq_nil_iff]; exact hmemD.mp hex⟩
    obtain ⟨page, hpage, hf⟩ := file_some hr ((steps_json E ds p _).mpr ⟨s, hmem, rfl, rfl⟩) (fun o ho => by
      obtain ⟨s', hs', he, rfl⟩ := (steps_json E ds p o).mp ho
      obtain ⟨h1, h2, -⟩ := (perPackage_mem _ s').mp hs'
      have : s' = s := by cases s'; cases he; simp_all [s]
      rw [this])
    obtain ⟨rs, h1, h2⟩ := bindOk hpage
    cases h2
    refine ⟨_, rs, hs, hf, ?_⟩
    exact ((mapList_iff _ _ _).mp h1).imp fun e o h => osvOf_ok h
  · rw [List.map_eq_nil_iff]
    by_contra hne
    obtain ⟨d, hdm, he⟩ := hmemD.mpr hne
    exact hno d hdm he
  · refine file_none fun o ho => ?_
    obtain ⟨s', hs', he, -⟩ := (steps_json E ds p o).mp ho
    obtain ⟨-, h2, h3⟩ := (perPackage_mem _ s').mp hs'
    rw [h2, Ne, List.map_eq_nil_iff, he] at h3
    obtain ⟨d, hdm, he⟩ := hmemD.mpr h3
    exact hno d hdm he

/-! ### Indexes -/

/-- The sorted items of an index. -/
def itemsInOrder (E : WebEnv) (l : List ListItem) : List ListItem :=
  l.insertionSort fun a b => strCmp (E.lower a.name) (E.lower b.name) ≠ .gt

theorem itemsInOrder_perm (E : WebEnv) (l : List ListItem) : (itemsInOrder E l).Perm l := List.perm_insertionSort _ l

theorem itemsInOrder_sorted (E : WebEnv) (l : List ListItem) :
    (itemsInOrder E l).Pairwise fun a b => strCmp (E.lower a.name) (E.lower b.name) ≠ .gt := by
  have ht : IsTrans ListItem fun a b => strCmp (E.lower a.name) (E.lower b.name) ≠ .gt := ⟨fun a b c h1 h2 => by
    have h1' : (strCmp (E.lower a.name) (E.lower b.name)).isLE = true := by
      cases h : strCmp (E.lower a.name) (E.lower b.name) <;> simp_all
    have h2' : (strCmp (E.lower b.name) (E.lower c.name)).isLE = true := by
      cases h : strCmp (E.lower b.name) (E.lower c.name) <;> simp_all
    have := TransCmp.isLE_trans (cmp := strCmp) h1' h2'
    intro e
    rw [e] at this
    cases this⟩
  have htot : Std.Total fun a b : ListItem => strCmp (E.lower a.name) (E.lower b.name) ≠ .gt := ⟨fun a b => by
    rw [OrientedCmp.eq_swap (cmp := strCmp) (a := E.lower b.name)]
    cases strCmp (E.lower a.name) (E.lower b.name) <;> simp⟩
  exact List.pairwise_insertionSort _ l

theorem indexOf_sorted (E : WebEnv) (P : ListItem → Prop) (l : List ListItem) (h1 : (l.map ListItem.name).Nodup)
    (h2 : ∀ i, i ∈ l ↔ P i) : IndexOf E P (itemsInOrder E l) where
  names := ((itemsInOrder_perm E l).map _).nodup_iff.mpr h1
  mem := fun i => (itemsInOrder_perm E l).mem_iff.trans (h2 i)
  sorted := itemsInOrder_sorted E l

theorem countP_perm {ds : List Data} (P : Data → Bool) : (newestFirst ds).countP P = ds.countP P :=
  (newestFirst_perm ds).countP_eq P

/-- **C70.**  The index of packages lists every package with an advisory once, with the number of its advisories,
sorted without regard to case (unless a package is called `index`). -/
theorem C70_package_index (E : WebEnv) (as : List AdvisoryFile) (ds : List Data) (hd : List.Forall₂ (Dated E) as ds)
    (hr : (renderAdvisories E as).result = .ok ()) (hi : ∀ d ∈ ds, packageOf d ≠ "index".toList) :
    ∃ items, (renderAdvisories E as).file (htmlFile "packages" "index".toList) = some (.index "Packages".toList items) ∧
      IndexOf E (fun i => ∃ d ∈ ds, i = ⟨packageOf d, "/packages/".toList ++ packageOf d ++ ".html".toList,
        some (ds.countP fun d' => decide (packageOf d' = packageOf d))⟩) items := by
  rw [render_eq hd] at hr ⊢
  refine ⟨itemsInOrder E (packages (newestFirst ds)), ?_, ?_⟩
  · obtain ⟨page, hp, hf⟩ := file_some hr ((steps_packages E ds "index".toList _).mpr (.inl ⟨rfl, rfl⟩)) (fun o ho => by
      rcases (steps_packages E ds _ o).mp ho with h | ⟨s, hs, he, -⟩
      · exact h.2
      · obtain ⟨-, h2, h3⟩ := (perPackage_mem _ s).mp hs
        rw [h2, Ne, List.map_eq_nil_iff, he, ← Ne, filter_empty] at h3
        obtain ⟨d, hdm, hx⟩ := h3
        exact absurd (by simpa using hx) (hi d ((newestFirst_perm ds).mem_iff.mp hdm)))
    rw [hf]
    exact congrArg some (Outcome.ok.inj hp).symm
  · have hm := mem_counts (urlOf "packages") packageOf (newestFirst ds)
    refine indexOf_sorted E _ _ hm.1 fun i => (hm.2 i).trans ?_
    simp only [countP_perm, (newestFirst_perm ds).mem_iff]
    constructor
    · rintro ⟨h1, d, hdm, he⟩
      refine ⟨d, hdm, ?_⟩
      rw [he]
      exact h1
    · rintro ⟨d, hdm, he⟩
      have hn : i.name = packageOf d := by rw [he]
      refine ⟨?_, d, hdm, hn.symm⟩
      rw [hn]
      exact he

/-! ### Keywords and categories -/

theorem slug_iff (k s : Str) : s = safeKeyword k ↔ Slug k s := by
  unfold Slug safeKeyword
  have hc : ∀ c : Char, (c.isAlphanum || c == '-' || c == '_') = true ↔
      ('a' ≤ c ∧ c ≤ 'z' ∨ 'A' ≤ c ∧ c ≤ 'Z' ∨ '0' ≤ c ∧ c ≤ '9' ∨ c = '-' ∨ c = '_') := by
    intro c
    simp only [Char.isAlphanum, Char.isAlpha, Char.isUpper, Char.isLower, Char.isDigit, Bool.or_eq_true,
      Bool.and_eq_true, decide_eq_true_eq, beq_iff_eq, Char.le_def, ge_iff_le]
    tauto
  have hif : ∀ c : Char, (if (c.isAlphanum || c == '-' || c == '_') = true then c else '-') =
      if 'a' ≤ c ∧ c ≤ 'z' ∨ 'A' ≤ c ∧ c ≤ 'Z' ∨ '0' ≤ c ∧ c ≤ '9' ∨ c = '-' ∨ c = '_' then c else '-' :=
    fun c => if_congr (hc c) rfl rfl
  induction k generalizing s with
  | nil => simp
  | cons c k ih =>
    rw [List.map_cons, hif]
    constructor
    · rintro rfl
      exact .cons rfl ((ih _).mp rfl)
    · intro h
      cases h with
      | cons h1 h2 => rw [h1, ← (ih _).mpr h2]

theorem mem_slugs (d : Data) (k : Str) : k ∈ slugs d ↔ HasKeyword d k := by
  unfold slugs HasKeyword
  rw [mem_sortDedup strCmp_eq_iff, List.mem_map]
  constructor
  · rintro ⟨x, hx, rfl⟩; exact ⟨x, hx, (slug_iff x _).mp rfl⟩
  · rintro ⟨x, hx, h⟩; exact ⟨x, hx, ((slug_iff x k).mpr h).symm⟩

instance (d : Data) (k : Str) : Decidable (HasKeyword d k) := decidable_of_iff _ (mem_slugs d k)

theorem slugs_nodup (d : Data) : (slugs d).Nodup := by
  have := sortDedup_sorted strCmp strCmp_eq_iff (d.advisory.metadata.keywords.map safeKeyword)
  refine this.imp fun {a b} h e => ?_
  rw [e, (strCmp_eq_iff b b).mpr rfl] at h
  cases h

theorem perKeyword_mem (ds : List Data) (s : Sub) :
    s ∈ perKeyword ds ↔ s.title = "Advisories with keyword '".toList ++ s.groupBy ++ "'".toList ∧
      s.entries = (ds.filter fun d => decide (HasKeyword d s.groupBy)).map entryOf ∧ s.entries ≠ [] := by
  have h := mem_subs (fun k => "Advisories with keyword '".toList ++ k ++ "'".toList) slugs ds s
  refine Iff.trans Iff.rfl (h.trans ?_)
  rw [valuesOf_keyed_nodup _ _ _ _ (fun d _ => slugs_nodup d)]
  have : (ds.filter fun d => decide (s.groupBy ∈ slugs d)) = ds.filter fun d => decide (HasKeyword d s.groupBy) :=
    List.filter_congr fun d _ => decide_eq_decide.mpr (mem_slugs d s.groupBy)
  rw [this]

/-- **C70.**  A keyword's page shows exactly the advisories that have a keyword with this address, each once, the newest
first; the index lists exactly these addresses, each once.  (`index` is taken.) -/
theorem C70_keywords (E : WebEnv) (as : List AdvisoryFile) (ds : List Data) (hd : List.Forall₂ (Dated E) as ds)
    (hr : (renderAdvisories E as).result = .ok ()) (k : Str) :
    (k ≠ "index".toList → (∃ d ∈ ds, HasKeyword d k) →
      ∃ l, (renderAdvisories E as).file (htmlFile "keywords" k) =
          some (.sub ⟨"Advisories with keyword '".toList ++ k ++ "'".toList, k, l⟩) ∧
        ListsAll (ds.filter fun d => decide (HasKeyword d k)) l) ∧
    (k ≠ "index".toList → (∀ d ∈ ds, ¬ HasKeyword d k) →
      (renderAdvisories E as).file (htmlFile "keywords" k) = none) ∧
    ((∀ d ∈ ds, ¬ HasKeyword d "index".toList) → ∃ items,
      (renderAdvisories E as).file (htmlFile "keywords" "index".toList) = some (.index "Keywords".toList items) ∧
      IndexOf E (fun i => ∃ d ∈ ds, ∃ k, HasKeyword d k ∧
        i = ⟨k, "/keywords/".toList ++ k ++ ".html".toList, none⟩) items) := by
  rw [render_eq hd] at hr ⊢
  have hmemD : ∀ k, (∃ d ∈ ds, HasKeyword d k) ↔
      (newestFirst ds).filter (fun d => decide (HasKeyword d k)) ≠ [] := by
    intro k
    rw [filter_empty]
    simp only [decide_eq_true_eq, (newestFirst_perm ds).mem_iff]
  have hg := fun hk => group_file (E := E) "keywords" (perKeyword (newestFirst ds)) k
    (fun k => "Advisories with keyword '".toList ++ k ++ "'".toList)
    (fun k => ((newestFirst ds).filter fun d => decide (HasKeyword d k)).map entryOf) hr hk
    (fun o ho => ((steps_keywords E ds k o).mp ho).imp (fun h => h.1) id)
    (fun s hs he => (steps_keywords E ds k _).mpr (.inr ⟨s, hs, he, rfl⟩))
    (fun s => perKeyword_mem (newestFirst ds) s)
  refine ⟨fun hk hex => ⟨_, (hg hk).1 ?_, shows_filter ds _⟩, fun hk hno => (hg hk).2 ?_, fun hi => ?_⟩
  · rw [Ne, List.map_eq_nil_iff]; exact (hmemD k).mp hex
  · rw [List.map_eq_nil_iff]
    by_contra hne
    obtain ⟨d, hdm, he⟩ := (hmemD k).mpr hne
    exact hno d hdm he
  · refine ⟨itemsInOrder E (keywords (newestFirst ds)), ?_, ?_⟩
    · obtain ⟨page, hp, hf⟩ := file_some hr ((steps_keywords E ds "index".toList _).mpr (.inl ⟨rfl, rfl⟩))
        (fun o ho => by
          rcases (steps_keywords E ds _ o).mp ho with h | ⟨s, hs, he, -⟩
          · exact h.2
          · obtain ⟨-, h2, h3⟩ := (perKeyword_mem _ s).mp hs
            rw [h2, Ne, List.map_eq_nil_iff, he] at h3
            obtain ⟨d, hdm, hx⟩ := (hmemD _).mpr h3
            exact absurd hx (hi d hdm))
      rw [hf]
      exact congrArg some (Outcome.ok.inj hp).symm
    · have hm := mem_items (urlOf "keywords") slugs (newestFirst ds)
      refine indexOf_sorted E _ _ hm.1 fun i => (hm.2 i).trans ?_
      simp only [(newestFirst_perm ds).mem_iff, mem_slugs]
      constructor
      · rintro ⟨h1, d, hdm, he⟩
        exact ⟨d, hdm, i.name, he, h1⟩
      · rintro ⟨d, hdm, k, hk, he⟩
        have hn : i.name = k := by rw [he]
        rw [hn]
        exact ⟨he, d, hdm, hk⟩

theorem mem_categoryNames (d : Data) (k : Str) :
    k ∈ d.advisory.metadata.categories.map Category.name ↔ HasCategory d k := by
  unfold HasCategory
  rw [List.mem_map]

instance (d : Data) (k : Str) : Decidable (HasCategory d k) := decidable_of_iff _ (mem_categoryNames d k)

theorem perCategory_mem (ds : List Data) (s : Sub) :
    s ∈ perCategory ds ↔ s.title = "Advisories in category '".toList ++ s.groupBy ++ "'".toList ∧
      s.entries = (ds.flatMap fun d => List.replicate (timesIn d s.groupBy) (entryOf d)) ∧ s.entries ≠ [] := by
  have h := mem_subs (fun k => "Advisories in category '".toList ++ k ++ "'".toList)
    (fun d => d.advisory.metadata.categories.map Category.name) ds s
  refine Iff.trans Iff.rfl (h.trans ?_)
  rw [valuesOf_keyed]
  have : ∀ d : Data, (d.advisory.metadata.categories.map Category.name).count s.groupBy = timesIn d s.groupBy := by
    intro d
    unfold timesIn List.count
    rw [List.countP_map]
    refine List.countP_congr fun c _ => ?_
    simp
  simp only [this]

theorem timesIn_pos (d : Data) (k : Str) : 0 < timesIn d k ↔ HasCategory d k := by
  unfold timesIn HasCategory
  rw [List.countP_pos_iff]
  simp

/-- **C70.**  A category's page shows the advisories of the category, the newest first, each once if no advisory names
the category twice; the index lists exactly the categories, each once.  (`index` is taken.) -/
theorem C70_categories (E : WebEnv) (as : List AdvisoryFile) (ds : List Data) (hd : List.Forall₂ (Dated E) as ds)
    (hr : (renderAdvisories E as).result = .ok ()) (k : Str) :
    (k ≠ "index".toList → (∃ d ∈ ds, HasCategory d k) →
      ∃ l, (renderAdvisories E as).file (htmlFile "categories" k) =
          some (.sub ⟨"Advisories in category '".toList ++ k ++ "'".toList, k, l⟩) ∧
        (∀ d, (d ∈ l.map Prod.fst ↔ d ∈ ds ∧ HasCategory d k)) ∧ NewestFirst (l.map Prod.fst) ∧
        (∀ e ∈ l, TitleOf e.1.advisory e.2) ∧
        ((∀ d ∈ ds, timesIn d k ≤ 1) → ListsAll (ds.filter fun d => decide (HasCategory d k)) l)) ∧
    (k ≠ "index".toList → (∀ d ∈ ds, ¬ HasCategory d k) →
      (renderAdvisories E as).file (htmlFile "categories" k) = none) ∧
    ((∀ d ∈ ds, ¬ HasCategory d "index".toList) → ∃ items,
      (renderAdvisories E as).file (htmlFile "categories" "index".toList) = some (.index "Categories".toList items) ∧
      IndexOf E (fun i => ∃ d ∈ ds, ∃ k, HasCategory d k ∧
        i = ⟨k, "/categories/".toList ++ k ++ ".html".toList, none⟩) items) := by
  rw [render_eq hd] at hr ⊢
  have hmemD : ∀ k, (∃ d ∈ ds, HasCategory d k) ↔
      ((newestFirst ds).flatMap fun d => List.replicate (timesIn d k) (entryOf d)) ≠ [] := by
    intro k
    rw [flatMap_ne_nil]
    constructor
    · rintro ⟨d, hdm, h⟩
      have := (timesIn_pos d k).mpr h
      exact ⟨d, (newestFirst_perm ds).mem_iff.mpr hdm, by rw [Ne, List.replicate_eq_nil_iff]; omega⟩
    · rintro ⟨d, hdm, h⟩
      rw [Ne, List.replicate_eq_nil_iff] at h
      exact ⟨d, (newestFirst_perm ds).mem_iff.mp hdm, (timesIn_pos d k).mp (by omega)⟩
  have hg := fun hk => group_file (E := E) "categories" (perCategory (newestFirst ds)) k
    (fun k => "Advisories in category '".toList ++ k ++ "'".toList)
    (fun k => (newestFirst ds).flatMap fun d => List.replicate (timesIn d k) (entryOf d)) hr hk
    (fun o ho => ((steps_categories E ds k o).mp ho).imp (fun h => h.1) id)
    (fun s hs he => (steps_categories E ds k _).mpr (.inr ⟨s, hs, he, rfl⟩))
    (fun s => perCategory_mem (newestFirst ds) s)
  refine ⟨fun hk hex => ⟨_, (hg hk).1 ((hmemD k).mp hex), fun d => ?_, ?_, fun e he => ?_, fun h1 => ?_⟩,
    fun hk hno => (hg hk).2 ?_, fun hi => ?_⟩
  · rw [List.mem_map]
    constructor
    · rintro ⟨e, he, rfl⟩
      obtain ⟨d, hdm, he⟩ := List.mem_flatMap.mp he
      obtain ⟨hz, rfl⟩ := List.mem_replicate.mp he
      exact ⟨(newestFirst_perm ds).mem_iff.mp hdm, (timesIn_pos d k).mp (by omega)⟩
    · rintro ⟨hdm, hc⟩
      have := (timesIn_pos d k).mpr hc
      exact ⟨entryOf d, List.mem_flatMap.mpr ⟨d, (newestFirst_perm ds).mem_iff.mpr hdm,
        List.mem_replicate.mpr ⟨by omega, rfl⟩⟩, rfl⟩
  · have hord := newestFirst_order ds
    unfold NewestFirst at hord ⊢
    rw [List.map_flatMap]
    simp only [List.map_replicate]
    rw [List.pairwise_flatMap]
    constructor
    · intro d _
      rw [List.pairwise_replicate]
      right
      show strCmp d.created.text d.created.text ≠ .lt
      rw [(strCmp_eq_iff _ _).mpr rfl]
      decide
    · refine hord.imp fun {a b} h x hx y hy => ?_
      obtain ⟨-, rfl⟩ := List.mem_replicate.mp hx
      obtain ⟨-, rfl⟩ := List.mem_replicate.mp hy
      exact h
  · obtain ⟨d, -, he⟩ := List.mem_flatMap.mp he
    obtain ⟨-, rfl⟩ := List.mem_replicate.mp he
    exact titleType_titleOf _
  · have : ((newestFirst ds).flatMap fun d => List.replicate (timesIn d k) (entryOf d)) =
        ((newestFirst ds).filter fun d => decide (HasCategory d k)).map entryOf := by
      have h1' : ∀ d ∈ newestFirst ds, timesIn d k ≤ 1 := fun d hdm => h1 d ((newestFirst_perm ds).mem_iff.mp hdm)
      generalize newestFirst ds = l at h1'
      induction l with
      | nil => rfl
      | cons d l ih =>
        rw [List.flatMap_cons, ih fun d hdm => h1' d (List.mem_cons_of_mem _ hdm), List.filter_cons]
        have hle := h1' d List.mem_cons_self
        by_cases hc : HasCategory d k
        · have := (timesIn_pos d k).mpr hc
          have e : timesIn d k = 1 := by omega
          rw [e, if_pos (by simpa using hc)]; rfl
        · have e : timesIn d k = 0 := by
            by_contra h0
            exact hc ((timesIn_pos d k).mp (by omega))
          rw [e, if_neg (by simpa using hc)]; rfl
    rw [this]
    exact shows_filter ds _
  · by_contra hne
    obtain ⟨d, hdm, he⟩ := (hmemD k).mpr hne
    exact hno d hdm he
  · refine ⟨itemsInOrder E (categories (newestFirst ds)), ?_, ?_⟩
    · obtain ⟨page, hp, hf⟩ := file_some hr ((steps_categories E ds "index".toList _).mpr (.inl ⟨rfl, rfl⟩))
        (fun o ho => by
          rcases (steps_categories E ds _ o).mp ho with h | ⟨s, hs, he, -⟩
          · exact h.2
          · obtain ⟨-, h2, h3⟩ := (perCategory_mem _ s).mp hs
            rw [h2, he] at h3
            obtain ⟨d, hdm, hx⟩ := (hmemD _).mpr h3
            exact absurd hx (hi d hdm))
      rw [hf]
      exact congrArg some (Outcome.ok.inj hp).symm
    · have hm := mem_items (urlOf "categories") (fun d => d.advisory.metadata.categories.map Category.name)
        (newestFirst ds)
      refine indexOf_sorted E _ _ hm.1 fun i => (hm.2 i).trans ?_
      simp only [(newestFirst_perm ds).mem_iff, mem_categoryNames]
      constructor
      · rintro ⟨h1, d, hdm, he⟩
        exact ⟨d, hdm, i.name, he, h1⟩
      · rintro ⟨d, hdm, k, hk, he⟩
        have hn : i.name = k := by rw [he]
        rw [hn]
        exact ⟨he, d, hdm, hk⟩

end Verif.Props
