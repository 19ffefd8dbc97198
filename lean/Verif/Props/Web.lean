import Verif.Props.WebGroups
import Verif.Props.AdvisoryDecode
import Verif.Props.SyncRun

/-!
# C70: the pages of the site
-/

namespace Verif.Props

open Verif.Adv Verif.Web Verif.Git Verif.Export Verif.Lock Verif.Sync Verif.Spec Std

/-! ### The order of lists -/

/-- The order of `newestFirst`. -/
def notOlder (a b : Data) : Prop := strCmp b.created.text a.created.text ≠ .gt

instance : DecidableRel notOlder := fun a b => by unfold notOlder; infer_instance

theorem newestFirst_eq (ds : List Data) : newestFirst ds = ds.insertionSort notOlder := rfl

theorem newestFirst_perm (ds : List Data) : (newestFirst ds).Perm ds := List.perm_insertionSort _ ds

theorem newestFirst_order (ds : List Data) : NewestFirst (newestFirst ds) := by
  have ht : IsTrans Data notOlder := ⟨fun a b c h1 h2 => by
    unfold notOlder at *
    have h1' : (strCmp b.created.text a.created.text).isLE = true := by
      cases h : strCmp b.created.text a.created.text <;> simp_all
    have h2' : (strCmp c.created.text b.created.text).isLE = true := by
      cases h : strCmp c.created.text b.created.text <;> simp_all
    have := TransCmp.isLE_trans (cmp := strCmp) h2' h1'
    intro e
    rw [e] at this
    cases this⟩
  have htot : Std.Total notOlder := ⟨fun a b => by
    unfold notOlder
    rw [OrientedCmp.eq_swap (cmp := strCmp) (a := b.created.text)]
    cases strCmp a.created.text b.created.text <;> simp⟩
  have := List.pairwise_insertionSort notOlder ds
  refine this.imp fun {a b} h => ?_
  unfold notOlder at h
  rw [OrientedCmp.eq_swap (cmp := strCmp)]
  cases hc : strCmp b.created.text a.created.text <;> simp_all

theorem newestFirst_stable (ds : List Data) (t : Str) :
    (newestFirst ds).filter (fun d => decide (d.created.text = t)) = ds.filter fun d => decide (d.created.text = t) := by
  rw [newestFirst_eq]
  refine filter_insertionSort notOlder _ (fun a b ha hb => ?_) ds
  have h1 : a.created.text = t := by simpa using ha
  have h2 : b.created.text = t := by simpa using hb
  unfold notOlder
  rw [h1, h2, (strCmp_eq_iff t t).mpr rfl]
  decide

theorem titleType_titleOf (a : AdvisoryFile) : TitleOf a (titleType a) := by
  unfold titleType
  dsimp only
  split
  · rename_i h; exact .notice h
  · rename_i h; exact .unmaintained h
  · rename_i h; exact .unsound h
  · rename_i s h; exact .other s h
  · rename_i h
    split
    · rename_i hm; exact .malicious h hm
    · rename_i hm; exact .vulnerability h hm

/-- A title says what it is about: it is determined by the advisory. -/
theorem titleOf_unique {a : AdvisoryFile} {t : Str} (h : TitleOf a t) : t = titleType a := by
  unfold titleType
  cases h with
  | notice h => rw [h]
  | unmaintained h => rw [h]
  | unsound h => rw [h]
  | other s h => rw [h]
  | malicious h hm => rw [h]; exact (if_pos hm).symm
  | vulnerability h hm => rw [h]; exact (if_neg hm).symm

/-- Advisories that are picked out of the sorted list are shown in order. -/
theorem shows_filter (ds : List Data) (P : Data → Bool) :
    ListsAll (ds.filter P) (((newestFirst ds).filter P).map entryOf) := by
  have hm : (((newestFirst ds).filter P).map entryOf).map Prod.fst = (newestFirst ds).filter P := by
    rw [List.map_map]
    exact (List.map_congr_left (fun d _ => rfl)).trans (List.map_id _)
  refine ⟨?_, ?_, fun t => ?_, fun e he => ?_⟩
  · rw [hm]; exact (newestFirst_perm ds).filter P
  · rw [hm]; exact (newestFirst_order ds).sublist List.filter_sublist
  · rw [hm, List.filter_filter, List.filter_filter]
    have := congrArg (List.filter P) (newestFirst_stable ds t)
    rw [List.filter_filter, List.filter_filter] at this
    have hc : ∀ l : List Data, l.filter (fun d => decide (d.created.text = t) && P d) =
        l.filter fun d => P d && decide (d.created.text = t) :=
      fun l => List.filter_congr fun d _ => Bool.and_comm _ _
    rw [hc, hc]; exact this
  · obtain ⟨d, -, rfl⟩ := List.mem_map.mp he
    exact titleType_titleOf _

/-! ### What is written -/

theorem runSteps_ok {l : List Step} (h : (runSteps l).result = .ok ()) :
    l = (runSteps l).writes.map fun w => (w.1, .ok w.2) := by
  induction l with
  | nil => rfl
  | cons st l ih =>
    obtain ⟨p, o⟩ := st
    cases o with
    | ok page =>
      have h' : (runSteps l).result = .ok () := h
      show (p, Outcome.ok page) :: l = (p, Outcome.ok page) :: (runSteps l).writes.map fun w => (w.1, .ok w.2)
      rw [← ih h']
    | err => cases h
    | panic => cases h

theorem rlookup_some {β : Type} (l : List (SitePath × β)) (p : SitePath) (x : β) (h : (p, x) ∈ l)
    (hu : ∀ y, (p, y) ∈ l → y = x) : l.reverse.lookup p = some x := by
  have key : ∀ m : List (SitePath × β), (p, x) ∈ m → (∀ y, (p, y) ∈ m → y = x) → m.lookup p = some x := by
    intro m
    induction m with
    | nil => intro h; cases h
    | cons a m ih =>
      intro h hu
      obtain ⟨q, y⟩ := a
      rw [List.lookup_cons]
      by_cases hq : p = q
      · subst hq
        rw [beq_self_eq_true]
        exact congrArg some (hu y List.mem_cons_self)
      · have : (p == q) = false := by simpa using hq
        rw [this]
        refine ih ?_ fun y hy => hu y (List.mem_cons_of_mem _ hy)
        rcases List.mem_cons.mp h with e | h
        · exact absurd (Prod.mk.inj e).1 hq
        · exact h
  exact key _ (List.mem_reverse.mpr h) fun y hy => hu y (List.mem_reverse.mp hy)

theorem rlookup_none {β : Type} (l : List (SitePath × β)) (p : SitePath) (h : ∀ y, (p, y) ∉ l) :
    l.reverse.lookup p = none := by
  rw [List.lookup_eq_none_iff]
  intro a ha
  have : p ≠ a.1 := by
    rintro rfl
    exact h a.2 (List.mem_reverse.mp ha)
  simpa using this

/-- The file written by the only action for it. -/
theorem file_some {l : List Step} (h : (runSteps l).result = .ok ()) {p : SitePath} {o : Outcome Page}
    (hm : (p, o) ∈ l) (hu : ∀ o', (p, o') ∈ l → o' = o) : ∃ page, o = .ok page ∧ (runSteps l).file p = some page := by
  have e := runSteps_ok h
  have hall : ∀ o', (p, o') ∈ l ↔ ∃ page, o' = .ok page ∧ (p, page) ∈ (runSteps l).writes := by
    intro o'
    constructor
    · intro hx
      rw [e] at hx
      obtain ⟨w, hw, hw'⟩ := List.mem_map.mp hx
      cases hw'
      exact ⟨w.2, rfl, hw⟩
    · rintro ⟨page, rfl, hp⟩
      rw [e]
      exact List.mem_map.mpr ⟨(p, page), hp, rfl⟩
  obtain ⟨page, rfl, hp⟩ := (hall o).mp hm
  refine ⟨page, rfl, rlookup_some _ _ _ hp fun y hy => ?_⟩
  exact Outcome.ok.inj (hu _ ((hall _).mpr ⟨y, rfl, hy⟩))

theorem file_none {l : List Step} {p : SitePath} (hu : ∀ o, (p, o) ∉ l) : (runSteps l).file p = none := by
  refine rlookup_none _ _ fun y hy => ?_
  have hsub : ∀ l : List Step, ∀ w ∈ (runSteps l).writes, (w.1, Outcome.ok w.2) ∈ l := by
    intro l
    induction l with
    | nil => intro w hw; cases hw
    | cons st l ih =>
      obtain ⟨q, o⟩ := st
      cases o with
      | ok page =>
        intro w hw
        have hw' : w ∈ (q, page) :: (runSteps l).writes := hw
        rcases List.mem_cons.mp hw' with rfl | hw'
        · exact List.mem_cons_self
        · exact List.mem_cons_of_mem _ (ih w hw')
      | err => intro w hw; cases hw
      | panic => intro w hw; cases hw
  exact hu _ (hsub l _ hy)

/-- The actions, one by one. -/
theorem mem_steps (E : WebEnv) (ds : List Data) (st : Step) :
    st ∈ steps E ds ↔
      st = (at_ "" "contributing.html".toList, .ok .static) ∨
      (∃ d ∈ ds, st = advisoryStep E d) ∨
      st = (at_ "" "index.html".toList, .ok .static) ∨ st = (at_ "" "search.html".toList, .ok .static) ∨
      st = (at_ "advisories" "index.html".toList,
        do listingPage E ((newestFirst ds).map entryOf); .ok (.listing ((newestFirst ds).map entryOf))) ∨
      st = indexStep E "packages" "Packages" (packages (newestFirst ds)) ∨
      (∃ s ∈ perPackage (newestFirst ds), st = subStep E "packages" s ∨ st = osvStep E s) ∨
      st = indexStep E "keywords" "Keywords" (keywords (newestFirst ds)) ∨
      (∃ s ∈ perKeyword (newestFirst ds), st = subStep E "keywords" s) ∨
      st = indexStep E "categories" "Categories" (categories (newestFirst ds)) ∨
      (∃ s ∈ perCategory (newestFirst ds), st = subStep E "categories" s) ∨
      st = (at_ "js" "index.js".toList,
        .ok (.search (searchIds E (newestFirst ds)) (searchPackages E (newestFirst ds)))) ∨
      st = feedStep E (newestFirst ds) := by
  unfold steps
  simp only [List.mem_append, List.mem_cons, List.mem_map, List.mem_flatMap, List.not_mem_nil, or_false,
    eq_comm (a := st), or_assoc]

/-- Different folders, or different names: different files. -/
theorem suffix_inj {a b s : Str} (h : a ++ s = b ++ s) : a = b := List.append_cancel_right h

theorem html_ne_json (a b : Str) : a ++ ".html".toList ≠ b ++ ".json".toList := by
  intro h
  have := congrArg (fun l : Str => l.reverse.head?) h
  simp at this

/-- Two folders differ. -/
local macro "other_folder" f:term:max h:ident : tactic => `(tactic| first
  | exact absurd (show ($f : String).toList = "".toList from congrArg (fun x => x.1.1) $h) (by decide)
  | exact absurd (show ($f : String).toList = "advisories".toList from congrArg (fun x => x.1.1) $h) (by decide)
  | exact absurd (show ($f : String).toList = "packages".toList from congrArg (fun x => x.1.1) $h) (by decide)
  | exact absurd (show ($f : String).toList = "keywords".toList from congrArg (fun x => x.1.1) $h) (by decide)
  | exact absurd (show ($f : String).toList = "categories".toList from congrArg (fun x => x.1.1) $h) (by decide)
  | exact absurd (show ($f : String).toList = "js".toList from congrArg (fun x => x.1.1) $h) (by decide))

theorem index_name {k : Str} (h : k ++ ".html".toList = "index.html".toList) : k = "index".toList :=
  suffix_inj (h.trans (by decide : "index.html".toList = "index".toList ++ ".html".toList))

/-- The actions of a file of the folder `packages`. -/
theorem steps_packages (E : WebEnv) (ds : List Data) (k : Str) (o : Outcome Page) :
    (htmlFile "packages" k, o) ∈ steps E ds ↔
      (k = "index".toList ∧ o = (indexStep E "packages" "Packages" (packages (newestFirst ds))).2) ∨
      ∃ s ∈ perPackage (newestFirst ds), s.groupBy = k ∧ o = (subStep E "packages" s).2 := by
  rw [mem_steps]
  constructor
  · rintro (h | ⟨d, -, h⟩ | h | h | h | h | ⟨s, hs, h | h⟩ | h | ⟨s, hs, h⟩ | h | ⟨s, hs, h⟩ | h | h)
    on_goal 6 => exact .inl ⟨index_name (congrArg (fun x => x.1.2) h), congrArg Prod.snd h⟩
    on_goal 6 => exact .inr ⟨s, hs, (suffix_inj (congrArg (fun x => x.1.2) h)).symm, congrArg Prod.snd h⟩
    on_goal 6 => exact absurd (congrArg (fun x => x.1.2) h) (html_ne_json _ _)
    all_goals other_folder "packages" h
  · rintro (⟨rfl, rfl⟩ | ⟨s, hs, rfl, rfl⟩)
    · exact .inr (.inr (.inr (.inr (.inr (.inl rfl)))))
    · exact .inr (.inr (.inr (.inr (.inr (.inr (.inl ⟨s, hs, .inl rfl⟩))))))

theorem steps_json (E : WebEnv) (ds : List Data) (k : Str) (o : Outcome Page) :
    (jsonFile k, o) ∈ steps E ds ↔ ∃ s ∈ perPackage (newestFirst ds), s.groupBy = k ∧ o = (osvStep E s).2 := by
  rw [mem_steps]
  constructor
  · rintro (h | ⟨d, -, h⟩ | h | h | h | h | ⟨s, hs, h | h⟩ | h | ⟨s, hs, h⟩ | h | ⟨s, hs, h⟩ | h | h)
    on_goal 6 => exact absurd (congrArg (fun x => x.1.2) h).symm (html_ne_json "index".toList k)
    on_goal 6 => exact absurd (congrArg (fun x => x.1.2) h).symm (html_ne_json _ _)
    on_goal 6 => exact ⟨s, hs, (suffix_inj (congrArg (fun x => x.1.2) h)).symm, congrArg Prod.snd h⟩
    all_goals other_folder "packages" h
  · rintro ⟨s, hs, rfl, rfl⟩
    exact .inr (.inr (.inr (.inr (.inr (.inr (.inl ⟨s, hs, .inr rfl⟩))))))

theorem steps_keywords (E : WebEnv) (ds : List Data) (k : Str) (o : Outcome Page) :
    (htmlFile "keywords" k, o) ∈ steps E ds ↔
      (k = "index".toList ∧ o = (indexStep E "keywords" "Keywords" (keywords (newestFirst ds))).2) ∨
      ∃ s ∈ perKeyword (newestFirst ds), s.groupBy = k ∧ o = (subStep E "keywords" s).2 := by
  rw [mem_steps]
  constructor
  · rintro (h | ⟨d, -, h⟩ | h | h | h | h | ⟨s, hs, h | h⟩ | h | ⟨s, hs, h⟩ | h | ⟨s, hs, h⟩ | h | h)
    on_goal 9 => exact .inl ⟨index_name (congrArg (fun x => x.1.2) h), congrArg Prod.snd h⟩
    on_goal 9 => exact .inr ⟨s, hs, (suffix_inj (congrArg (fun x => x.1.2) h)).symm, congrArg Prod.snd h⟩
    all_goals other_folder "keywords" h
  · rintro (⟨rfl, rfl⟩ | ⟨s, hs, rfl, rfl⟩)
    · exact .inr (.inr (.inr (.inr (.inr (.inr (.inr (.inl rfl)))))))
    · exact .inr (.inr (.inr (.inr (.inr (.inr (.inr (.inr (.inl ⟨s, hs, rfl⟩))))))))

theorem steps_categories (E : WebEnv) (ds : List Data) (k : Str) (o : Outcome Page) :
    (htmlFile "categories" k, o) ∈ steps E ds ↔
      (k = "index".toList ∧ o = (indexStep E "categories" "Categories" (categories (newestFirst ds))).2) ∨
      ∃ s ∈ perCategory (newestFirst ds), s.groupBy = k ∧ o = (subStep E "categories" s).2 := by
  rw [mem_steps]
  constructor
  · rintro (h | ⟨d, -, h⟩ | h | h | h | h | ⟨s, hs, h | h⟩ | h | ⟨s, hs, h⟩ | h | ⟨s, hs, h⟩ | h | h)
    on_goal 11 => exact .inl ⟨index_name (congrArg (fun x => x.1.2) h), congrArg Prod.snd h⟩
    on_goal 11 => exact .inr ⟨s, hs, (suffix_inj (congrArg (fun x => x.1.2) h)).symm, congrArg Prod.snd h⟩
    all_goals other_folder "categories" h
  · rintro (⟨rfl, rfl⟩ | ⟨s, hs, rfl, rfl⟩)
    · exact .inr (.inr (.inr (.inr (.inr (.inr (.inr (.inr (.inr (.inl rfl)))))))))
    · exact .inr (.inr (.inr (.inr (.inr (.inr (.inr (.inr (.inr (.inr (.inl ⟨s, hs, rfl⟩))))))))))

theorem steps_advisories (E : WebEnv) (ds : List Data) (k : Str) (o : Outcome Page) :
    (htmlFile "advisories" k, o) ∈ steps E ds ↔
      (k = "index".toList ∧ o = do
        listingPage E ((newestFirst ds).map entryOf); .ok (.listing ((newestFirst ds).map entryOf))) ∨
      ∃ d ∈ ds, d.advisory.metadata.id.string = k ∧ o = (advisoryStep E d).2 := by
  rw [mem_steps]
  constructor
  · rintro (h | ⟨d, hd, h⟩ | h | h | h | h | ⟨s, hs, h | h⟩ | h | ⟨s, hs, h⟩ | h | ⟨s, hs, h⟩ | h | h)
    on_goal 2 => exact .inr ⟨d, hd, (suffix_inj (congrArg (fun x => x.1.2) h)).symm, congrArg Prod.snd h⟩
    on_goal 4 => exact .inl ⟨index_name (congrArg (fun x => x.1.2) h), congrArg Prod.snd h⟩
    all_goals other_folder "advisories" h
  · rintro (⟨rfl, rfl⟩ | ⟨d, hd, rfl, rfl⟩)
    · exact .inr (.inr (.inr (.inr (.inl rfl))))
    · exact .inr (.inl ⟨d, hd, rfl⟩)

theorem steps_js (E : WebEnv) (ds : List Data) (o : Outcome Page) :
    (("js".toList, "index.js".toList), o) ∈ steps E ds ↔
      o = .ok (.search (searchIds E (newestFirst ds)) (searchPackages E (newestFirst ds))) := by
  rw [mem_steps]
  constructor
  · rintro (h | ⟨d, hd, h⟩ | h | h | h | h | ⟨s, hs, h | h⟩ | h | ⟨s, hs, h⟩ | h | ⟨s, hs, h⟩ | h | h)
    on_goal 13 => exact congrArg Prod.snd h
    all_goals other_folder "js" h
  · rintro rfl
    exact .inr (.inr (.inr (.inr (.inr (.inr (.inr (.inr (.inr (.inr (.inr (.inl rfl)))))))))))

theorem steps_feed (E : WebEnv) (ds : List Data) (o : Outcome Page) :
    (("".toList, "feed.xml".toList), o) ∈ steps E ds ↔ o = (feedStep E (newestFirst ds)).2 := by
  rw [mem_steps]
  constructor
  · rintro (h | ⟨d, hd, h⟩ | h | h | h | h | ⟨s, hs, h | h⟩ | h | ⟨s, hs, h⟩ | h | ⟨s, hs, h⟩ | h | h)
    on_goal 14 => exact congrArg Prod.snd h
    on_goal 1 => exact absurd (show "feed.xml".toList = "contributing.html".toList from congrArg (fun x => x.1.2) h) (by decide)
    on_goal 2 => exact absurd (show "feed.xml".toList = "index.html".toList from congrArg (fun x => x.1.2) h) (by decide)
    on_goal 2 => exact absurd (show "feed.xml".toList = "search.html".toList from congrArg (fun x => x.1.2) h) (by decide)
    all_goals other_folder "" h
  · rintro rfl
    exact .inr (.inr (.inr (.inr (.inr (.inr (.inr (.inr (.inr (.inr (.inr (.inr rfl)))))))))))

end Verif.Props
