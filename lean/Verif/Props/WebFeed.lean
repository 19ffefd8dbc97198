import Verif.Props.WebPages
import Verif.Props.Assigner
import Verif.Lemmas.IsoOrder

/-!
# C70: advisories, search, feed
-/

namespace Verif.Props

open Verif.Adv Verif.Web Verif.Git Verif.Export Verif.Lock Verif.Sync Verif.Spec Std

theorem shows_all (ds : List Data) : ListsAll ds ((newestFirst ds).map entryOf) := by
  have h := shows_filter ds (fun _ => true)
  rwa [List.filter_true, List.filter_true] at h

/-- **C70.**  Every advisory has its own page, and the list of advisories shows all of them, the newest first.  (The IDs
are those of a database: they differ, and none is `index`.) -/
theorem C70_advisories (E : WebEnv) (as : List AdvisoryFile) (ds : List Data) (hd : List.Forall₂ (Dated E) as ds)
    (hr : (renderAdvisories E as).result = .ok ())
    (hids : ∀ d ∈ ds, ∀ d' ∈ ds, d.advisory.metadata.id.string = d'.advisory.metadata.id.string → d = d')
    (hi : ∀ d ∈ ds, d.advisory.metadata.id.string ≠ "index".toList) :
    (∀ d ∈ ds, (renderAdvisories E as).file (htmlFile "advisories" d.advisory.metadata.id.string) =
      some (.advisory d)) ∧
    (∀ k, k ≠ "index".toList → (∀ d ∈ ds, d.advisory.metadata.id.string ≠ k) →
      (renderAdvisories E as).file (htmlFile "advisories" k) = none) ∧
    ∃ l, (renderAdvisories E as).file (htmlFile "advisories" "index".toList) = some (.listing l) ∧ ListsAll ds l := by
  rw [render_eq hd] at hr ⊢
  refine ⟨fun d hdm => ?_, fun k hk hno => ?_, _, ?_, shows_all ds⟩
  · obtain ⟨page, hp, hf⟩ := file_some hr ((steps_advisories E ds _ _).mpr (.inr ⟨d, hdm, rfl, rfl⟩)) (fun o ho => by
      rcases (steps_advisories E ds _ o).mp ho with h | ⟨d', hd', he, rfl⟩
      · exact absurd h.1 (hi d hdm)
      · rw [hids d' hd' d hdm he])
    rw [hf, bind_page hp]
  · refine file_none fun o ho => ?_
    rcases (steps_advisories E ds k o).mp ho with h | ⟨d', hd', he, -⟩
    · exact hk h.1
    · exact hno d' hd' he
  · obtain ⟨page, hp, hf⟩ := file_some hr ((steps_advisories E ds "index".toList _).mpr (.inl ⟨rfl, rfl⟩)) (fun o ho => by
      rcases (steps_advisories E ds _ o).mp ho with h | ⟨d', hd', he, -⟩
      · exact h.2
      · exact absurd he (hi d' hd'))
    rw [hf, bind_page hp]

/-! ### Search -/

/-- The advisories that a search for IDs finds. -/
def foundIds (E : WebEnv) (ds : List Data) (k : Str) : List Id :=
  valuesOf (keyed (fun d => (d.advisory.metadata.aliases ++ d.advisory.metadata.related ++
    [d.advisory.metadata.id]).map fun x => E.lower x.display) (fun d => d.advisory.metadata.id) ds) k

theorem mem_foundIds (E : WebEnv) (ds : List Data) (k : Str) (x : Id) :
    x ∈ foundIds E ds k ↔ ∃ d ∈ ds, d.advisory.metadata.id = x ∧ Answers E d k := by
  unfold foundIds
  rw [valuesOf_keyed, List.mem_flatMap]
  constructor
  · rintro ⟨d, hd, h⟩
    obtain ⟨h1, h2⟩ := List.mem_replicate.mp h
    refine ⟨d, hd, h2.symm, ?_⟩
    have := List.count_pos_iff.mp (Nat.pos_of_ne_zero h1)
    obtain ⟨i, hi, he⟩ := List.mem_map.mp this
    refine ⟨i, ?_, he⟩
    simpa [or_assoc] using hi
  · rintro ⟨d, hd, rfl, i, hi, he⟩
    refine ⟨d, hd, List.mem_replicate.mpr ⟨?_, rfl⟩⟩
    refine Nat.ne_of_gt (List.count_pos_iff.mpr (List.mem_map.mpr ⟨i, ?_, he⟩))
    simpa [or_assoc] using hi

theorem lookup_searchIds (E : WebEnv) (ds : List Data) (k : Str) :
    (searchIds E ds).lookup k = if foundIds E ds k = [] then none else some (foundIds E ds k) := by
  obtain ⟨hn, hm⟩ := mem_searchIds E ds
  have key : ∀ m : List (Str × List Id), (m.map Prod.fst).Nodup → ∀ l, (k, l) ∈ m → m.lookup k = some l := by
    intro m
    induction m with
    | nil => intro _ l h; cases h
    | cons e m ih =>
      intro hn l h
      obtain ⟨k', l'⟩ := e
      rw [List.map_cons, List.nodup_cons] at hn
      rcases List.mem_cons.mp h with h | hmem
      · cases h
        simp [List.lookup]
      · have : k ≠ k' := by
          rintro rfl
          exact hn.1 (List.mem_map.mpr ⟨(k, l), hmem, rfl⟩)
        rw [List.lookup_cons]
        have hb : (k == k') = false := by simpa using this
        rw [hb]
        exact ih hn.2 l hmem
  split
  · rename_i he
    rw [List.lookup_eq_none_iff]
    intro e hem
    by_contra hx
    have hk : k = e.1 := by simpa using hx
    obtain ⟨h1, h2⟩ := (hm e.1 e.2).mp hem
    rw [← hk] at h2
    exact h1 (h2.trans he)
  · rename_i he
    exact key _ hn _ ((hm k _).mpr ⟨he, rfl⟩)

/-- **C70.**  A search leads to the page of the package of this name, whatever the case.  If there is none, it leads to
the advisories whose ID, alias or related ID this is: the page of the advisory if there is one, a list of them if there
are several.  Otherwise it finds nothing. -/
theorem C70_search (E : WebEnv) (as : List AdvisoryFile) (ds : List Data) (hd : List.Forall₂ (Dated E) as ds)
    (hr : (renderAdvisories E as).result = .ok ()) :
    ∃ ids packages, (renderAdvisories E as).file ("js".toList, "index.js".toList) = some (.search ids packages) ∧
      ∀ term,
        ((∃ d ∈ ds, E.lower (packageOf d) = E.lower term) →
          search E ids packages term = .page (htmlFile "packages" (E.lower term))) ∧
        ((∀ d ∈ ds, E.lower (packageOf d) ≠ E.lower term) →
          ∃ found : List Id,
            (∀ x, x ∈ found ↔ ∃ d ∈ ds, d.advisory.metadata.id = x ∧ Answers E d (E.lower term)) ∧
            ((∀ x, x ∉ found) → search E ids packages term = .nothing) ∧
            (∀ x, found = [x] → search E ids packages term = .page (htmlFile "advisories" x.string)) ∧
            (2 ≤ found.length → search E ids packages term = .results found) ∧
            ((∀ d ∈ ds, ((d.advisory.metadata.aliases ++ d.advisory.metadata.related ++
                [d.advisory.metadata.id]).map fun x => E.lower x.string).Nodup) →
              (ds.map fun d => d.advisory.metadata.id).Nodup → found.Nodup)) := by
  rw [render_eq hd] at hr ⊢
  refine ⟨searchIds E (newestFirst ds), searchPackages E (newestFirst ds), ?_, fun term => ⟨fun hp => ?_, fun hp => ?_⟩⟩
  · obtain ⟨page, hp, hf⟩ := file_some hr ((steps_js E ds _).mpr rfl) (fun o ho => (steps_js E ds o).mp ho)
    cases hp
    exact hf
  · have : E.lower term ∈ searchPackages E (newestFirst ds) := by
      rw [mem_searchPackages]
      obtain ⟨d, hdm, he⟩ := hp
      exact ⟨d, (newestFirst_perm ds).mem_iff.mpr hdm, he⟩
    unfold search
    exact if_pos this
  · have hno : E.lower term ∉ searchPackages E (newestFirst ds) := by
      rw [mem_searchPackages]
      rintro ⟨d, hdm, he⟩
      exact hp d ((newestFirst_perm ds).mem_iff.mp hdm) he
    have hs : search E (searchIds E (newestFirst ds)) (searchPackages E (newestFirst ds)) term =
        match (searchIds E (newestFirst ds)).lookup (E.lower term) with
        | some [id] => .page (at_ "advisories" (id.string ++ ".html".toList))
        | some l => .results l
        | none => .nothing := if_neg hno
    rw [hs, lookup_searchIds]
    refine ⟨foundIds E (newestFirst ds) (E.lower term), fun x => ?_, fun h => ?_, fun x h => ?_, fun h => ?_, fun h1 h2 => ?_⟩
    · rw [mem_foundIds]
      simp only [(newestFirst_perm ds).mem_iff]
    · rw [List.eq_nil_iff_forall_not_mem.mpr h]
      rfl
    · rw [h]
      rfl
    · have hne : foundIds E (newestFirst ds) (E.lower term) ≠ [] := by
        intro e
        rw [e] at h
        cases h
      rw [if_neg hne]
      generalize hf : foundIds E (newestFirst ds) (E.lower term) = f at h
      match f, h with
      | _ :: _ :: _, _ => rfl
    · unfold foundIds
      have h1' : ∀ d ∈ newestFirst ds, ((d.advisory.metadata.aliases ++ d.advisory.metadata.related ++
          [d.advisory.metadata.id]).map fun x => E.lower x.display).Nodup := fun d hdm =>
        h1 d ((newestFirst_perm ds).mem_iff.mp hdm)
      rw [valuesOf_keyed_nodup _ _ _ _ h1']
      exact (((newestFirst_perm ds).map _).nodup_iff.mpr h2).sublist (List.Sublist.map _ List.filter_sublist)

/-- **C70.**  If the names of packages are in lower case and no package and no advisory is called `index`, the page that
a search leads to exists. -/
theorem C70_search_page_exists (E : WebEnv) (as : List AdvisoryFile) (ds : List Data)
    (hd : List.Forall₂ (Dated E) as ds) (hr : (renderAdvisories E as).result = .ok ())
    (hids : ∀ d ∈ ds, ∀ d' ∈ ds, d.advisory.metadata.id.string = d'.advisory.metadata.id.string → d = d')
    (hi : ∀ d ∈ ds, d.advisory.metadata.id.string ≠ "index".toList)
    (hlow : ∀ d ∈ ds, E.lower (packageOf d) = packageOf d) (hpi : ∀ d ∈ ds, packageOf d ≠ "index".toList)
    (ids : List (Str × List Id)) (packages : List Str)
    (hj : (renderAdvisories E as).file ("js".toList, "index.js".toList) = some (.search ids packages))
    (term : Str) (p : SitePath) (hs : search E ids packages term = .page p) :
    ∃ page, (renderAdvisories E as).file p = some page := by
  obtain ⟨ids', packages', hj', hall⟩ := C70_search E as ds hd hr
  rw [hj] at hj'
  cases hj'
  obtain ⟨h1, h2⟩ := hall term
  by_cases hp : ∃ d ∈ ds, E.lower (packageOf d) = E.lower term
  · have := hs.symm.trans (h1 hp)
    cases this
    obtain ⟨d, hdm, he⟩ := hp
    rw [hlow d hdm] at he
    obtain ⟨l, hl, -⟩ := (C70_packages E as ds hd hr (E.lower term)).1 (he ▸ hpi d hdm) ⟨d, hdm, he⟩
    exact ⟨_, hl⟩
  · obtain ⟨found, hm, h3, h4, h5, -⟩ := h2 (fun d hdm he => hp ⟨d, hdm, he⟩)
    match found, hm, h3, h4, h5 with
    | [], _, h3, _, _ =>
      rw [h3 (fun x hx => by cases hx)] at hs
      cases hs
    | [x], hm, _, h4, _ =>
      rw [h4 x rfl] at hs
      cases hs
      obtain ⟨d, hdm, rfl, -⟩ := (hm x).mp List.mem_cons_self
      exact ⟨_, (C70_advisories E as ds hd hr hids hi).1 d hdm⟩
    | x :: y :: l, _, _, _, h5 =>
      rw [h5 (by simp)] at hs
      cases hs

/-! ### Feed -/

theorem recentLen_ok (E : WebEnv) : ∀ (ds : List Data) (n : Nat), recentLen E ds = .ok n →
    n ≤ ds.length ∧ (∀ d ∈ ds.take n, ∃ k, E.days d.created.text = some k ∧ E.today - 8 < k) ∧
    (∀ d l, ds.drop n = d :: l → ∃ k, E.days d.created.text = some k ∧ k ≤ E.today - 8)
  | [], n, h => by
    cases h
    exact ⟨Nat.le_refl _, (fun d hd => by cases hd), (fun d l h => by cases h)⟩
  | d :: ds, n, h => by
    unfold recentLen at h
    split at h
    · cases h
    · rename_i k hk
      split at h
      · rename_i hgt
        obtain ⟨m, hm, h⟩ := bindOk h
        cases h
        obtain ⟨h1, h2, h3⟩ := recentLen_ok E ds m hm
        refine ⟨Nat.succ_le_succ h1, fun x hx => ?_, fun x l hx => h3 x l hx⟩
        rw [List.take_succ_cons] at hx
        rcases List.mem_cons.mp hx with rfl | hx
        · exact ⟨k, hk, hgt⟩
        · exact h2 x hx
      · rename_i hgt
        cases h
        refine ⟨Nat.zero_le _, (fun x hx => by cases hx), fun x l hx => ?_⟩
        rw [List.drop_zero] at hx
        cases hx
        exact ⟨k, hk, by omega⟩

theorem feedLen_le {total recent : Nat} (h : recent ≤ total) :
    recent ≤ feedLen total recent ∧ feedLen total recent ≤ total ∧ min 10 total ≤ feedLen total recent ∧
    (10 < feedLen total recent → feedLen total recent = recent) := by
  unfold feedLen
  split
  · omega
  · split <;> omega

theorem feedEntry_ok {E : WebEnv} {d : Data} {e : FeedEntry} (h : feedEntry E d = .ok e) :
    e.data = d ∧ EntryFor e := by
  unfold feedEntry at h
  obtain ⟨-, -, h⟩ := bindOk h
  split at h
  · split at h
    · cases h
      exact ⟨rfl, rfl, titleType_titleOf _, rfl, rfl, rfl⟩
    · cases h
  · cases h

/-- **C70.**  The feed has the newest advisories: at least ten, if there are so many; every advisory of the last week is
in it (those of the dates after the eighth day before today), and if it has more than ten, it has only those.  Its
entries are what the advisories say; its date is that of the newest. -/
theorem C70_feed (E : WebEnv) (as : List AdvisoryFile) (ds : List Data) (hd : List.Forall₂ (Dated E) as ds)
    (hr : (renderAdvisories E as).result = .ok ()) (hlaw : DayLaw E.days)
    (hiso : ∀ d ∈ ds, ∃ y m n, IsoText d.created.text y m n) :
    ∃ entries updated rest, (renderAdvisories E as).file ("".toList, "feed.xml".toList) = some (.feed entries updated) ∧
      (entries.map FeedEntry.data ++ rest).Perm ds ∧ NewestFirst (entries.map FeedEntry.data ++ rest) ∧
      (entries.length < 10 → rest = []) ∧
      (∀ d ∈ rest, ∀ k, E.days d.created.text = some k → k ≤ E.today - 8) ∧
      (10 < entries.length → ∀ e ∈ entries, ∃ k, E.days e.data.created.text = some k ∧ E.today - 8 < k) ∧
      (∀ e ∈ entries, EntryFor e) ∧
      ∃ d, (entries.map FeedEntry.data).head? = some d ∧ updated = d.created.text ++ "T12:00:00+00:00".toList := by
  rw [render_eq hd] at hr ⊢
  obtain ⟨page, hp, hf⟩ := file_some hr ((steps_feed E ds _).mpr rfl) (fun o ho => (steps_feed E ds o).mp ho)
  obtain ⟨n, hn, hp⟩ := bindOk hp
  obtain ⟨h1, h2, h3⟩ := recentLen_ok E _ n hn
  obtain ⟨l1, l2, l3, l4⟩ := feedLen_le h1
  generalize hL : feedLen (newestFirst ds).length n = L at *
  have hlen : ((newestFirst ds).take L).length = L := by rw [List.length_take]; omega
  unfold renderFeed at hp
  split at hp
  · cases hp
  · rename_i d l hcons
    obtain ⟨entries, he, hp⟩ := bindOk hp
    split at hp
    · cases hp
      have hall := (mapList_iff _ _ _).mp he
      have hdata : entries.map FeedEntry.data = (newestFirst ds).take L := by
        rw [← List.forall₂_eq_eq_eq, List.forall₂_map_left_iff]
        exact (hall.flip).imp fun e d h => (feedEntry_ok h).1
      have helen : entries.length = L := by
        rw [← hlen, ← hdata, List.length_map]
      have hsplit : entries.map FeedEntry.data ++ (newestFirst ds).drop L = newestFirst ds := by
        rw [hdata, List.take_append_drop]
      refine ⟨entries, _, (newestFirst ds).drop L, hf, ?_, ?_, ?_, ?_, ?_, ?_, d, ?_, rfl⟩
      · rw [hsplit]; exact newestFirst_perm ds
      · rw [hsplit]; exact newestFirst_order ds
      · intro hlt
        rw [List.drop_eq_nil_iff]
        omega
      · intro x hx k hk
        have hsub : x ∈ (newestFirst ds).drop n := by
          have : (newestFirst ds).drop L = ((newestFirst ds).drop n).drop (L - n) := by
            rw [List.drop_drop]; congr 1; omega
          rw [this] at hx
          exact List.mem_of_mem_drop hx
        have hord : NewestFirst ((newestFirst ds).drop n) := (newestFirst_order ds).sublist (List.drop_sublist _ _)
        have hmemds : ∀ y ∈ (newestFirst ds).drop n, y ∈ ds := fun y hy =>
          (newestFirst_perm ds).mem_iff.mp (List.mem_of_mem_drop hy)
        cases hdn : (newestFirst ds).drop n with
        | nil => rw [hdn] at hsub; cases hsub
        | cons y ys =>
          obtain ⟨k', hk', hle⟩ := h3 y ys hdn
          rw [hdn] at hsub hord hmemds
          rcases List.mem_cons.mp hsub with rfl | hys
          · rw [hk] at hk'
            cases hk'
            exact hle
          · have hc := (List.pairwise_cons.mp hord).1 x hys
            obtain ⟨a1, a2, a3, ha⟩ := hiso y (hmemds y List.mem_cons_self)
            obtain ⟨b1, b2, b3, hb⟩ := hiso x (hmemds x (List.mem_cons_of_mem _ hys))
            have := hlaw _ _ _ _ _ _ _ _ k k' hb ha hk hk' (iso_not_lt ha hb hc)
            omega
      · intro hgt e hem
        have : e.data ∈ (newestFirst ds).take n := by
          rw [← l4 (by omega), ← hdata]
          exact List.mem_map_of_mem hem
        exact h2 _ this
      · intro e hem
        obtain ⟨d', -, h⟩ := forall2_left hall.flip hem
        exact (feedEntry_ok h).2
      · rw [hdata, hcons]
        rfl
    · cases hp

/-! ### When the site is finished -/

theorem runSteps_of_ok {l : List Step} (h : ∀ st ∈ l, ∃ page, st.2 = .ok page) : (runSteps l).result = .ok () := by
  induction l with
  | nil => rfl
  | cons st l ih =>
    obtain ⟨p, o⟩ := st
    obtain ⟨page, rfl⟩ := h _ List.mem_cons_self
    exact ih fun st hst => h st (List.mem_cons_of_mem _ hst)

theorem friendlyDate_ok {E : WebEnv} {t : DateText} (h : ShowsDate E t) : friendlyDate E t = .ok () := by
  obtain ⟨y, m, n, h1, h2, h3, h4⟩ := h
  unfold friendlyDate
  simp only [h1, h2, h3, h4, Outcome.bind_ok, if_true]

theorem advisoryPage_ok {E : WebEnv} {d : Data} (h : Presentable E d) : advisoryPage E d = .ok () := by
  unfold advisoryPage
  rw [friendlyDate_ok h.date, friendlyDate_ok h.created, friendlyDate_ok h.modified]
  simp only [Outcome.bind_ok]
  split <;> rfl

theorem listingPage_ok {E : WebEnv} {l : Listing} (h : ∀ e ∈ l, Presentable E e.1) : listingPage E l = .ok () := by
  induction l with
  | nil => rfl
  | cons e l ih =>
    unfold listingPage
    rw [friendlyDate_ok (h e List.mem_cons_self).created]
    simpa only [Outcome.bind_ok] using ih fun e he => h e (List.mem_cons_of_mem _ he)

theorem osvOf_of_record {E : WebEnv} {d : Data} {o : OsvAdvisory} (h : RecordOf E d o) : osvOf E d = .ok o := by
  obtain ⟨c, path, hc, rfl, ht, ho⟩ := h
  unfold osvOf pathOf
  have ht' : E.exp.tracked
      (gitPath ⟨c, d.advisory.metadata.package, d.advisory.metadata.id.display ++ ".md".toList⟩) = true := ht
  rw [hc]
  simp only [Outcome.bind_ok, ht', if_true]
  exact ho

theorem recentLen_total {E : WebEnv} {ds : List Data} (h : ∀ d ∈ ds, Presentable E d) :
    ∃ n, recentLen E ds = .ok n := by
  induction ds with
  | nil => exact ⟨0, rfl⟩
  | cons d ds ih =>
    obtain ⟨k, hk⟩ := (h d List.mem_cons_self).day
    unfold recentLen
    rw [hk]
    dsimp only
    split
    · obtain ⟨n, hn⟩ := ih fun x hx => h x (List.mem_cons_of_mem _ hx)
      rw [hn]
      exact ⟨n + 1, rfl⟩
    · exact ⟨0, rfl⟩

theorem feedEntry_total {E : WebEnv} {d : Data} (h : Presentable E d) : ∃ e, feedEntry E d = .ok e := by
  unfold feedEntry
  rw [advisoryPage_ok h]
  have h1 : E.stamp (d.created.text ++ noon) = true := h.published
  have h2 : E.stamp (d.modified.text ++ noon) = true := h.updated
  simp only [Outcome.bind_ok, h1, h2, if_true]
  exact ⟨_, rfl⟩

/-- **C70.**  If there is an advisory, and the dates and records of all of them can be presented, the site is
finished. -/
theorem C70_finishes (E : WebEnv) (as : List AdvisoryFile) (ds : List Data) (hd : List.Forall₂ (Dated E) as ds)
    (hne : as ≠ []) (h : ∀ d ∈ ds, Presentable E d) : (renderAdvisories E as).result = .ok () := by
  rw [render_eq hd]
  have hdne : ds ≠ [] := by
    rintro rfl
    cases hd
    exact hne rfl
  have hs : ∀ d ∈ newestFirst ds, Presentable E d := fun d hdm => h d ((newestFirst_perm ds).mem_iff.mp hdm)
  have hsub : ∀ (folder : String) (s : Sub), (∀ e ∈ s.entries, Presentable E e.1) →
      ∃ page, (subStep E folder s).2 = .ok page := fun folder s hs => ⟨.sub s, by
    show (do listingPage E s.entries; Outcome.ok (Page.sub s)) = _
    rw [listingPage_ok hs]
    rfl⟩
  have hentry : ∀ (l : List Data), (∀ d ∈ l, d ∈ newestFirst ds) → ∀ e ∈ l.map entryOf, Presentable E e.1 := by
    intro l hl e he
    obtain ⟨d, hdm, rfl⟩ := List.mem_map.mp he
    exact hs d (hl d hdm)
  refine runSteps_of_ok fun st hst => ?_
  rcases (mem_steps E ds st).mp hst with
    rfl | ⟨d, hdm, rfl⟩ | rfl | rfl | rfl | rfl | ⟨s, hm, rfl | rfl⟩ | rfl | ⟨s, hm, rfl⟩ | rfl | ⟨s, hm, rfl⟩ | rfl | rfl
  · exact ⟨_, rfl⟩
  · refine ⟨.advisory d, ?_⟩
    show (do advisoryPage E d; Outcome.ok (Page.advisory d)) = _
    rw [advisoryPage_ok (h d hdm)]
    rfl
  · exact ⟨_, rfl⟩
  · exact ⟨_, rfl⟩
  · refine ⟨.listing ((newestFirst ds).map entryOf), ?_⟩
    dsimp only
    rw [listingPage_ok (hentry _ fun d hd => hd)]
    rfl
  · exact ⟨_, rfl⟩
  · refine hsub _ s ?_
    rw [((perPackage_mem _ s).mp hm).2.1]
    exact hentry _ fun d hd => List.mem_of_mem_filter hd
  · have hall : ∀ e ∈ s.entries, Presentable E e.1 := by
      rw [((perPackage_mem _ s).mp hm).2.1]
      exact hentry _ fun d hd => List.mem_of_mem_filter hd
    obtain ⟨rs, hrs⟩ := (mapList_total (f := fun e : Data × Str => osvOf E e.1) s.entries).mpr (fun e he => by
      obtain ⟨o, ho⟩ := (hall e he).record
      exact ⟨o, osvOf_of_record ho⟩)
    refine ⟨.osv rs, ?_⟩
    show (do let rs ← Outcome.mapList (fun e : Data × Str => osvOf E e.1) s.entries; Outcome.ok (Page.osv rs)) = _
    rw [hrs]
    rfl
  · exact ⟨_, rfl⟩
  · refine hsub _ s ?_
    rw [((perKeyword_mem _ s).mp hm).2.1]
    exact hentry _ fun d hd => List.mem_of_mem_filter hd
  · exact ⟨_, rfl⟩
  · refine hsub _ s ?_
    rw [((perCategory_mem _ s).mp hm).2.1]
    intro e he
    obtain ⟨d, hdm, hrep⟩ := List.mem_flatMap.mp he
    rw [List.eq_of_mem_replicate hrep]
    exact hs d hdm
  · exact ⟨_, rfl⟩
  · obtain ⟨n, hn⟩ := recentLen_total hs
    show ∃ page, (do let n ← recentLen E (newestFirst ds)
                     renderFeed E ((newestFirst ds).take (feedLen (newestFirst ds).length n))) = Outcome.ok page
    rw [hn]
    simp only [Outcome.bind_ok]
    obtain ⟨h1, -, -⟩ := recentLen_ok E _ n hn
    obtain ⟨l1, l2, l3, -⟩ := feedLen_le h1
    generalize feedLen (newestFirst ds).length n = L at *
    have hlen : 0 < (newestFirst ds).length := by
      rw [(newestFirst_perm ds).length_eq]
      exact List.length_pos_iff.mpr hdne
    have htake : ∀ d ∈ (newestFirst ds).take L, Presentable E d := fun d hdm => hs d (List.mem_of_mem_take hdm)
    have hpos : 0 < ((newestFirst ds).take L).length := by rw [List.length_take]; omega
    generalize (newestFirst ds).take L = t at *
    match t, htake, hpos with
    | d :: t, htake, _ =>
      obtain ⟨es, hes⟩ := (mapList_total (f := feedEntry E) (d :: t)).mpr (fun e he => feedEntry_total (htake e he))
      have hst : E.stamp (d.created.text ++ noon) = true := (htake d List.mem_cons_self).published
      refine ⟨.feed es (d.created.text ++ noon), ?_⟩
      unfold renderFeed
      dsimp only
      rw [hes]
      simp only [Outcome.bind_ok, hst, if_true]

theorem runSteps_all {l : List Step} (h : (runSteps l).result = .ok ()) : ∀ st ∈ l, ∃ page, st.2 = .ok page := by
  induction l with
  | nil => exact fun _ h => by cases h
  | cons st l ih =>
    obtain ⟨p, o⟩ := st
    cases o with
    | err => cases h
    | panic => cases h
    | ok page =>
      intro st hst
      rcases List.mem_cons.mp hst with rfl | hst
      · exact ⟨page, rfl⟩
      · exact ih h st hst

theorem runSteps_written {l : List Step} {w : SitePath × Page} (h : w ∈ (runSteps l).writes) :
    ∃ st ∈ l, st.1 = w.1 ∧ st.2 = .ok w.2 := by
  induction l with
  | nil => cases h
  | cons st l ih =>
    obtain ⟨p, o⟩ := st
    cases o with
    | err => cases h
    | panic => cases h
    | ok page =>
      rcases List.mem_cons.mp h with rfl | h
      · exact ⟨_, .head _, rfl, rfl⟩
      · obtain ⟨st, hst, h⟩ := ih h
        exact ⟨st, .tail _ hst, h⟩

theorem friendlyDate_iff (E : WebEnv) (t : DateText) : friendlyDate E t = .ok () ↔ ShowsDate E t := by
  refine ⟨fun h => ?_, friendlyDate_ok⟩
  unfold friendlyDate at h
  obtain ⟨y, hy, h⟩ := bindOk h
  obtain ⟨m, hm, h⟩ := bindOk h
  obtain ⟨n, hn, h⟩ := bindOk h
  split at h
  · next he => exact ⟨y, m, n, hy, hm, hn, he⟩
  · cases h

theorem advisoryPage_iff (E : WebEnv) (d : Data) :
    advisoryPage E d = .ok () ↔
      ShowsDate E d.advisory.metadata.date ∧ ShowsDate E d.created ∧ (d.created = d.modified ∨ ShowsDate E d.modified) := by
  unfold advisoryPage
  constructor
  · intro h
    obtain ⟨_, h1, h⟩ := bindOk h
    obtain ⟨_, h2, h⟩ := bindOk h
    refine ⟨(friendlyDate_iff _ _).1 h1, (friendlyDate_iff _ _).1 h2, ?_⟩
    by_cases e : d.created = d.modified
    · exact Or.inl e
    · rw [if_pos e] at h
      exact Or.inr ((friendlyDate_iff _ _).1 h)
  · rintro ⟨h1, h2, h3⟩
    rw [(friendlyDate_iff _ _).2 h1, (friendlyDate_iff _ _).2 h2]
    simp only [Outcome.bind_ok]
    split
    · next e => exact (friendlyDate_iff _ _).2 (h3.resolve_left e)
    · rfl

theorem runSteps_stops {l r : List Step} (h : ∃ st ∈ l, ∀ page, st.2 ≠ .ok page) : runSteps (l ++ r) = runSteps l := by
  induction l with
  | nil => obtain ⟨_, h, _⟩ := h; cases h
  | cons st l ih =>
    obtain ⟨p, o⟩ := st
    cases o with
    | err => rfl
    | panic => rfl
    | ok page =>
      have : ∃ st ∈ l, ∀ page, st.2 ≠ .ok page := by
        obtain ⟨st, hst, hn⟩ := h
        rcases List.mem_cons.mp hst with rfl | hst
        · exact absurd rfl (hn page)
        · exact ⟨st, hst, hn⟩
      show ({ runSteps (l ++ r) with writes := (p, page) :: (runSteps (l ++ r)).writes } : SiteRun) = _
      rw [ih this]
      rfl

/-- **C70, dates that cannot be shown.**  If the date of an advisory is none (such as 30 February), or its date of
creation, or its date of modification where that differs, the site is not finished: nothing is written but pages of other
advisories and the page on contributing, so no lists and no feed. -/
theorem C70_bad_dates (E : WebEnv) (as : List AdvisoryFile) (ds : List Data) (hd : List.Forall₂ (Dated E) as ds)
    (d : Data) (hdm : d ∈ ds)
    (h : ¬ (ShowsDate E d.advisory.metadata.date ∧ ShowsDate E d.created ∧
      (d.created = d.modified ∨ ShowsDate E d.modified))) :
    (renderAdvisories E as).result ≠ .ok () ∧
    ∀ w ∈ (renderAdvisories E as).writes,
      w = (("".toList, "contributing.html".toList), Page.static) ∨ ∃ d' ∈ ds, d' ≠ d ∧ w.2 = Page.advisory d' := by
  rw [render_eq hd]
  have hstep : ∀ page, (advisoryStep E d).2 ≠ .ok page := by
    intro page hp
    obtain ⟨_, h1, _⟩ := bindOk hp
    exact h ((advisoryPage_iff E d).1 h1)
  obtain ⟨r, hr⟩ : ∃ r, steps E ds =
      ((at_ "" "contributing.html".toList, .ok .static) :: ds.map (advisoryStep E)) ++ r := by
    unfold steps
    simp only [List.append_assoc, List.cons_append]
    exact ⟨_, rfl⟩
  have hbad : advisoryStep E d ∈ ((at_ "" "contributing.html".toList, .ok .static) :: ds.map (advisoryStep E) : List Step) :=
    .tail _ (List.mem_map_of_mem hdm)
  rw [hr, runSteps_stops ⟨_, hbad, hstep⟩]
  refine ⟨fun hr => ?_, fun w hw => ?_⟩
  · obtain ⟨page, hp⟩ := runSteps_all hr _ hbad
    exact hstep page hp
  · obtain ⟨st, hst, h1, h2⟩ := runSteps_written hw
    rcases List.mem_cons.mp hst with rfl | hst
    · injection h2 with h2
      exact Or.inl (Prod.ext h1.symm h2.symm)
    · obtain ⟨d', hd', rfl⟩ := List.mem_map.mp hst
      refine Or.inr ⟨d', hd', ?_, ?_⟩
      · rintro rfl
        exact hstep _ h2
      · obtain ⟨_, _, e⟩ := bindOk h2
        injection e with e
        exact e.symm

/-- **C70 (violation).**  Without advisories the site is not finished: there is nothing to date the feed with. -/
theorem C70_no_advisories_panics (E : WebEnv) : (renderAdvisories E []).result = .panic ∧
    (renderAdvisories E []).file ("".toList, "feed.xml".toList) = none ∧
    (renderAdvisories E []).file (htmlFile "packages" "index".toList) = some (.index "Packages".toList []) := by
  refine ⟨rfl, ?_, ?_⟩
  · show List.lookup _ _ = none
    rfl
  · rfl

end Verif.Props
