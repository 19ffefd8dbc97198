import Verif.Spec.SitePaths
import Verif.Props.WebExamples
import Verif.Props.Database
import Verif.Props.SyncText
import Verif.Model.Assigner

/-!
# C111: where the web command writes
-/

namespace Verif.Props

open Verif.Adv Verif.Web Verif.Git Verif.Export Verif.Lock Verif.Sync Verif.Spec Verif.Db Verif.Assign

private theorem split_ext (s : Str) : ∃ init last, ∀ e : Str, '/' ∉ e → splitC '/' (s ++ e) = init ++ [last ++ e] := by
  induction s with
  | nil =>
    refine ⟨[], [], fun e he => ?_⟩
    simp only [List.nil_append]
    induction e with
    | nil => rfl
    | cons c e ih =>
      have hc : c ≠ '/' := fun h => he (by rw [h]; exact List.mem_cons_self)
      rw [splitC, if_neg hc, ih fun h => he (List.mem_cons_of_mem _ h)]
  | cons c s ih =>
    obtain ⟨init, last, h⟩ := ih
    by_cases hc : c = '/'
    · refine ⟨[] :: init, last, fun e he => ?_⟩
      rw [List.cons_append, splitC, if_pos hc, h e he]
      rfl
    · cases init with
      | nil =>
        refine ⟨[], c :: last, fun e he => ?_⟩
        rw [List.cons_append, splitC, if_neg hc, h e he]
        rfl
      | cons i init =>
        refine ⟨(c :: i) :: init, last, fun e he => ?_⟩
        rw [List.cons_append, splitC, if_neg hc, h e he]
        rfl

private theorem ext_parts {s e : Str} (he : '/' ∉ e) (hl : e.getLast? ≠ some '.') (hn : e ≠ []) {init : List Str} {last : Str}
    (h : splitC '/' (s ++ e) = init ++ [last ++ e]) : NoParent (s ++ e) ↔ "..".toList ∉ init := by
  unfold NoParent
  rw [h, List.mem_append, List.mem_singleton, not_or]
  refine ⟨fun h => h.1, fun h => ⟨h, fun hd => hl ?_⟩⟩
  have := congrArg List.getLast? hd
  rw [List.getLast?_append_of_ne_nil _ hn] at this
  rw [← this]
  decide

private theorem noParent_ext {s e e' : Str} (he : '/' ∉ e) (hl : e.getLast? ≠ some '.') (hn : e ≠ []) (he' : '/' ∉ e')
    (hl' : e'.getLast? ≠ some '.') (hn' : e' ≠ []) (h : NoParent (s ++ e)) : NoParent (s ++ e') := by
  obtain ⟨init, last, hs⟩ := split_ext s
  exact (ext_parts he' hl' hn' (hs e' he')).mpr ((ext_parts he hl hn (hs e he)).mp h)

private theorem noParent_flat {s e : Str} (hs : '/' ∉ s) (he : '/' ∉ e) (hl : e.getLast? ≠ some '.') (hn : e ≠ []) :
    NoParent (s ++ e) := by
  intro h
  obtain ⟨_, _, h0⟩ := split_ext []
  have key : splitC '/' (s ++ e) = [s ++ e] := by
    have : '/' ∉ s ++ e := by simp [hs, he]
    generalize s ++ e = t at this
    induction t with
    | nil => rfl
    | cons c t ih =>
      have hc : c ≠ '/' := fun h => this (by rw [h]; exact List.mem_cons_self)
      rw [splitC, if_neg hc, ih fun h => this (List.mem_cons_of_mem _ h)]
  rw [key, List.mem_singleton] at h
  have := congrArg List.getLast? h
  rw [List.getLast?_append_of_ne_nil _ hn] at this
  exact hl (by rw [← this]; decide)

private theorem join_relative (base p : Str) (h : p.head? ≠ some '/') : pathJoin base p = slashed base ++ p := by
  unfold pathJoin slashed
  rw [if_neg h]
  split
  · rfl
  · simp

private theorem join_folder (out folder p : Str) (hf : folder ≠ []) (h1 : folder.head? ≠ some '/')
    (h2 : folder.getLast? ≠ some '/') (h : p.head? ≠ some '/') :
    outputPath out (folder, p) = slashed out ++ (folder ++ '/' :: p) := by
  unfold outputPath
  rw [if_neg hf, join_relative _ _ h1, join_relative _ _ h]
  conv => lhs; unfold slashed
  rw [if_neg (by
    rintro (h' | h')
    · exact hf (List.append_eq_nil_iff.mp h').2
    · rw [List.getLast?_append_of_ne_nil _ hf] at h'
      exact h2 h')]
  simp [slashed]

private theorem join_absolute (out folder p : Str) (hf : folder ≠ []) (h : p.head? = some '/') :
    outputPath out (folder, p) = p := by
  unfold outputPath
  rw [if_neg hf]
  exact if_pos h

private theorem head_append {s e : Str} (h : s.head? ≠ some '/') (he : e.head? ≠ some '/') : (s ++ e).head? ≠ some '/' := by
  cases s with
  | nil => exact he
  | cons c s => exact h

private theorem head_flat {s : Str} (h : '/' ∉ s) : s.head? ≠ some '/' := by
  intro hh
  exact h (List.mem_of_mem_head? hh)

private theorem under_folder {out folder p : Str} (hf : folder ≠ []) (h0 : '/' ∉ folder) (hd : folder ≠ "..".toList)
    (h : p.head? ≠ some '/') (hp : NoParent p) : Inside out (outputPath out (folder, p)) := by
  refine ⟨folder ++ '/' :: p, join_folder _ _ _ hf (head_flat h0) (fun h => h0 (List.mem_of_getLast? h)) h, ?_, ?_⟩
  · cases folder with
    | nil => exact absurd rfl hf
    | cons c f => exact head_flat (s := c :: f) h0
  · unfold NoParent
    rw [splitC_append_gen, List.mem_append, not_or]
    refine ⟨fun hm => ?_, hp⟩
    have : splitC '/' folder = [folder] := by
      clear hd hm hf
      induction folder with
      | nil => rfl
      | cons c t ih =>
        have hc : c ≠ '/' := fun h => h0 (by rw [h]; exact List.mem_cons_self)
        rw [splitC, if_neg hc, ih fun h => h0 (List.mem_cons_of_mem _ h)]
    rw [this, List.mem_singleton] at hm
    exact hd hm.symm

private theorem under_top {out p : Str} (h : p.head? ≠ some '/') (hp : NoParent p) :
    Inside out (outputPath out ("".toList, p)) := by
  refine ⟨p, ?_, h, hp⟩
  show (if "".toList = [] then pathJoin out p else pathJoin (pathJoin out "".toList) p) = _
  rw [if_pos (by decide), join_relative _ _ h]

private theorem writes_sub (l : List Step) : ∀ w ∈ (runSteps l).writes, (w.1, Outcome.ok w.2) ∈ l := by
  induction l with
  | nil => intro w hw; cases hw
  | cons st l ih =>
    obtain ⟨q, o⟩ := st
    cases o with
    | ok page =>
      intro w hw
      have hw' : w ∈ (q, page) :: (runSteps l).writes := hw
      rcases List.mem_cons.mp hw' with rfl | hw'
      · exact List.mem_cons_self
      · exact List.mem_cons_of_mem _ (ih w hw')
    | err => intro w hw; cases hw
    | panic => intro w hw; cases hw

private theorem dated_list {E : WebEnv} {as : List AdvisoryFile} {w : SitePath × Page} (hw : w ∈ (renderAdvisories E as).writes) :
    ∃ ds, List.Forall₂ (Dated E) as ds ∧ (w.1, Outcome.ok w.2) ∈ steps E ds := by
  unfold renderAdvisories at hw
  cases ho : Outcome.mapList (Data.new E) as with
  | ok ds =>
    rw [ho] at hw
    exact ⟨ds, ((mapList_iff _ _ _).mp ho).imp fun a d h => (dated_iff E a d).mp h, writes_sub _ _ hw⟩
  | err => rw [ho] at hw; cases hw
  | panic => rw [ho] at hw; cases hw

private theorem slug_flat {k s : Str} (h : Slug k s) : '/' ∉ s := by
  unfold Slug at h
  induction h with
  | nil => exact List.not_mem_nil
  | cons h _ ih =>
    rw [List.mem_cons, not_or]
    refine ⟨fun he => ?_, ih⟩
    rw [← he] at h
    split at h
    · rename_i hc
      rw [← h] at hc
      revert hc
      decide
    · exact absurd h (by decide)

private theorem html : '/' ∉ ".html".toList ∧ ".html".toList.getLast? ≠ some '.' ∧ ".html".toList ≠ [] := by decide
private theorem json : '/' ∉ ".json".toList ∧ ".json".toList.getLast? ≠ some '.' ∧ ".json".toList ≠ [] := by decide
private theorem md : '/' ∉ ".md".toList ∧ ".md".toList.getLast? ≠ some '.' ∧ ".md".toList ≠ [] := by decide

private theorem site_under {E : WebEnv} {as : List AdvisoryFile} (hn : PlainNames E as) (out : Str) {w : SitePath × Page}
    (hw : w ∈ (renderAdvisories E as).writes) : Inside out (outputPath out w.1) := by
  obtain ⟨ds, hd, hm⟩ := dated_list hw
  have hback : ∀ d ∈ ds, ∃ a ∈ as, Dated E a d := fun d hdm => by
    obtain ⟨i, hi, rfl⟩ := List.mem_iff_getElem.mp hdm
    have hl := hd.length_eq
    exact ⟨as[i]'(by omega), List.getElem_mem _, (List.forall₂_iff_get.mp hd).2 i (by omega) hi⟩
  have hmem : ∀ d, d ∈ newestFirst ds → ∃ a ∈ as, d.advisory = a := fun d h => by
    obtain ⟨a, ha, hda⟩ := hback d ((newestFirst_perm ds).mem_iff.mp h)
    exact ⟨a, ha, hda.advisory⟩
  have flat : ∀ (folder : String) (k e : Str), folder.toList ≠ [] → '/' ∉ folder.toList → folder.toList ≠ "..".toList →
      '/' ∉ k → '/' ∉ e → e.getLast? ≠ some '.' → e ≠ [] → Inside out (outputPath out (folder.toList, k ++ e)) :=
    fun folder k e h1 h2 h3 hk he1 he2 he3 => under_folder h1 h2 h3 (head_append (head_flat hk) (head_flat he1))
      (noParent_flat hk he1 he2 he3)
  have hpk : ∀ s ∈ perPackage (newestFirst ds), '/' ∉ s.groupBy := fun s hs => by
    obtain ⟨-, he, hne⟩ := (perPackage_mem _ s).mp hs
    rw [he, Ne, List.map_eq_nil_iff] at hne
    obtain ⟨d, hdm, hp⟩ := (filter_empty _ _).mp hne
    obtain ⟨a, ha, e⟩ := hmem d hdm
    rw [← of_decide_eq_true hp]
    unfold packageOf
    rw [e]
    exact hn.package a ha
  rw [mem_steps] at hm
  rcases hm with h | ⟨d, hdm, h⟩ | h | h | h | h | ⟨s, hs, h | h⟩ | h | ⟨s, hs, h⟩ | h | ⟨s, hs, h⟩ | h | h <;>
    (have hw1 := congrArg Prod.fst h; replace hw1 : w.1 = _ := hw1; rw [hw1])
  · exact under_top (by decide +kernel) (by unfold NoParent; decide +kernel)
  · obtain ⟨a, ha, hda⟩ := hback d hdm
    obtain ⟨c, path, -, rfl, ht, -⟩ := hda.dates
    refine under_folder (by decide) (by decide) (by decide) ?_ ?_
    · rw [hda.advisory]
      exact head_append (hn.id a ha) (by decide)
    · have h1 := hn.git _ ht
      rw [hda.advisory]
      refine noParent_ext md.1 md.2.1 md.2.2 html.1 html.2.1 html.2.2 ?_
      unfold gitPath at h1
      unfold NoParent at h1 ⊢
      intro hx
      refine h1 ?_
      rw [splitC_append_gen, splitC_append_gen]
      exact List.mem_append_right _ (List.mem_append_right _ hx)
  · exact under_top (by decide +kernel) (by unfold NoParent; decide +kernel)
  · exact under_top (by decide +kernel) (by unfold NoParent; decide +kernel)
  · exact flat "advisories" "index".toList _ (by decide) (by decide) (by decide) (by decide) html.1 html.2.1 html.2.2
  · exact flat "packages" "index".toList _ (by decide) (by decide) (by decide) (by decide) html.1 html.2.1 html.2.2
  · exact flat "packages" s.groupBy _ (by decide) (by decide) (by decide) (hpk s hs) html.1 html.2.1 html.2.2
  · exact flat "packages" s.groupBy _ (by decide) (by decide) (by decide) (hpk s hs) json.1 json.2.1 json.2.2
  · exact flat "keywords" "index".toList _ (by decide) (by decide) (by decide) (by decide) html.1 html.2.1 html.2.2
  · refine flat "keywords" s.groupBy _ (by decide) (by decide) (by decide) ?_ html.1 html.2.1 html.2.2
    obtain ⟨-, he, hne⟩ := (perKeyword_mem _ s).mp hs
    rw [he, Ne, List.map_eq_nil_iff] at hne
    obtain ⟨d, -, hp⟩ := (filter_empty _ _).mp hne
    obtain ⟨k, -, hk⟩ := of_decide_eq_true hp
    exact slug_flat hk
  · exact flat "categories" "index".toList _ (by decide) (by decide) (by decide) (by decide) html.1 html.2.1 html.2.2
  · refine flat "categories" s.groupBy _ (by decide) (by decide) (by decide) ?_ html.1 html.2.1 html.2.2
    obtain ⟨-, he, hne⟩ := (perCategory_mem _ s).mp hs
    rw [he] at hne
    obtain ⟨d, hdm, hp⟩ := (flatMap_ne_nil _ _).mp hne
    obtain ⟨c, hc, hcn⟩ := (timesIn_pos d s.groupBy).mp (Nat.pos_of_ne_zero fun h0 => hp (by rw [h0]; rfl))
    obtain ⟨a, ha, e⟩ := hmem d hdm
    rw [← hcn]
    rw [e] at hc
    exact hn.category a ha c hc
  · exact flat "js" "index".toList ".js".toList (by decide) (by decide) (by decide) (by decide) (by decide) (by decide) (by decide)
  · exact under_top (by decide +kernel) (by unfold NoParent; decide +kernel)

/-- **Property C111.** `rustsec-admin web` writes nothing outside the folder it is given (else `_site/`), in all its runs, if
the categories of the advisories are without slashes and no ID starts with a slash.  With several paths it panics. -/
theorem C111_inside (E : WebEnv) (as : List AdvisoryFile) (paths : List Str) (hn : PlainNames E as) :
    (∀ p ∈ (webCommand E as paths).1, Inside (folderOf paths) p) ∧
    (2 ≤ paths.length → webCommand E as paths = ([], .panic)) := by
  match paths with
  | [] =>
    refine ⟨fun p hp => ?_, fun h => absurd h (by simp)⟩
    obtain ⟨w, hw, rfl⟩ := List.mem_map.mp hp
    exact site_under hn _ hw
  | [out] =>
    refine ⟨fun p hp => ?_, fun h => absurd h (by simp)⟩
    obtain ⟨w, hw, rfl⟩ := List.mem_map.mp hp
    exact site_under hn _ hw
  | _ :: _ :: _ => exact ⟨fun p hp => absurd hp List.not_mem_nil, fun _ => rfl⟩

/-- **Property C111** (packages): the packages of an opened database are names of directories, so they are without slashes. -/
theorem C111_packages (sev : Cvss.Cvss → Severity) (t : Db.Tree) (db : Database) (h : Database.open t = .ok db)
    (as : List AdvisoryFile) (hs : as.map (toAdvisory sev) = db.iter)
    (ht : ∀ c dir f, Located t c dir f → '/' ∉ dir) : ∀ a ∈ as, '/' ∉ a.metadata.package := by
  intro a ha
  obtain ⟨c, dir, f, a₀, hl, hw, he, -⟩ := C18_loaded_well_placed t db h (toAdvisory sev a)
    (hs ▸ List.mem_map_of_mem ha)
  have : a.metadata.package = dir := by
    rw [hw.2.1]
    exact congrArg (fun x : Advisory => x.metadata.package) he
  rw [this]
  exact ht c dir f hl

private theorem written {E : WebEnv} {as : List AdvisoryFile} (hr : (renderAdvisories E as).result = .ok ()) :
    ∃ ds, List.Forall₂ (Dated E) as ds ∧ ∀ st ∈ steps E ds, ∃ page, (st.1, page) ∈ (renderAdvisories E as).writes := by
  cases ho : Outcome.mapList (Data.new E) as with
  | ok ds =>
    have hd : List.Forall₂ (Dated E) as ds := ((mapList_iff _ _ _).mp ho).imp fun a d h => (dated_iff E a d).mp h
    rw [render_eq hd] at hr ⊢
    refine ⟨ds, hd, fun st hst => ?_⟩
    rw [runSteps_ok hr] at hst
    obtain ⟨w, hw, rfl⟩ := List.mem_map.mp hst
    exact ⟨w.2, hw⟩
  | err => unfold renderAdvisories at hr; rw [ho] at hr; cases hr
  | panic => unfold renderAdvisories at hr; rw [ho] at hr; cases hr

private theorem command_writes {E : WebEnv} {as : List AdvisoryFile} {paths : List Str} (hp : paths.length ≤ 1)
    {w : SitePath × Page} (hw : w ∈ (renderAdvisories E as).writes) :
    outputPath (folderOf paths) w.1 ∈ (webCommand E as paths).1 := by
  match paths with
  | [] => exact List.mem_map_of_mem (f := fun w : SitePath × Page => outputPath "_site/".toList w.1) hw
  | [out] => exact List.mem_map_of_mem (f := fun w : SitePath × Page => outputPath out w.1) hw
  | _ :: _ :: _ => exact absurd hp (by simp)

/-- **C111, violation** (categories): the text of an unknown category is a path.  One that goes up leads out of the folder, and
one that starts with a slash to any place. -/
theorem C111_category (E : WebEnv) (as : List AdvisoryFile) (paths : List Str) (hp : paths.length ≤ 1)
    (hr : (renderAdvisories E as).result = .ok ()) (a : AdvisoryFile) (ha : a ∈ as) (x : Str) :
    (.other ("../../".toList ++ x) ∈ a.metadata.categories →
      slashed (folderOf paths) ++ ("categories/../../".toList ++ (x ++ ".html".toList)) ∈ (webCommand E as paths).1) ∧
    (.other ('/' :: x) ∈ a.metadata.categories → '/' :: (x ++ ".html".toList) ∈ (webCommand E as paths).1) := by
  obtain ⟨ds, hd, hall⟩ := written hr
  obtain ⟨d, hdm, hda⟩ := forall2_left hd ha
  have key : ∀ c ∈ a.metadata.categories, outputPath (folderOf paths) (htmlFile "categories" c.name) ∈ (webCommand E as paths).1 := by
    intro c hc
    have hs : ∃ s ∈ perCategory (newestFirst ds), s.groupBy = c.name := by
      refine ⟨⟨"Advisories in category '".toList ++ c.name ++ "'".toList, c.name,
        (newestFirst ds).flatMap fun d => List.replicate (timesIn d c.name) (Web.entryOf d)⟩,
        (perCategory_mem _ _).mpr ⟨rfl, rfl, ?_⟩, rfl⟩
      show (newestFirst ds).flatMap (fun d => List.replicate (timesIn d c.name) (Web.entryOf d)) ≠ []
      rw [flatMap_ne_nil]
      refine ⟨d, (newestFirst_perm ds).mem_iff.mpr hdm, ?_⟩
      have : 0 < timesIn d c.name := (timesIn_pos d _).mpr ⟨c, by rw [hda.advisory]; exact hc, rfl⟩
      intro h0
      rw [List.replicate_eq_nil_iff] at h0
      omega
    obtain ⟨s, hs, hg⟩ := hs
    obtain ⟨page, hw⟩ := hall _ ((steps_categories E ds c.name _).mpr (.inr ⟨s, hs, hg, rfl⟩))
    exact command_writes hp hw
  constructor
  · intro h
    have := key _ h
    unfold htmlFile at this
    rw [join_folder _ _ _ (by decide) (by decide) (by decide) (by
      show ("../../".toList ++ x ++ ".html".toList).head? ≠ some '/'
      rw [List.append_assoc]
      exact (by decide : ("../../".toList).head? ≠ some '/'))] at this
    rw [show "categories/../../".toList = "categories".toList ++ '/' :: "../../".toList by decide +kernel]
    simp only [List.append_assoc, List.cons_append] at this ⊢
    exact this
  · intro h
    have := key _ h
    unfold htmlFile at this
    rw [join_absolute _ _ _ (by decide) rfl] at this
    exact this

/-- **C111, violation** (IDs): an ID that starts with a slash, as a draft may have, is a path, too. -/
theorem C111_draft (E : WebEnv) (as : List AdvisoryFile) (paths : List Str) (hp : paths.length ≤ 1)
    (hr : (renderAdvisories E as).result = .ok ()) (a : AdvisoryFile) (ha : a ∈ as) (x : Str)
    (hi : a.metadata.id.string = '/' :: x) : '/' :: (x ++ ".html".toList) ∈ (webCommand E as paths).1 := by
  obtain ⟨ds, hd, hall⟩ := written hr
  obtain ⟨d, hdm, hda⟩ := forall2_left hd ha
  obtain ⟨page, hw⟩ := hall _ ((steps_advisories E ds ('/' :: x) _).mpr (.inr ⟨d, hdm, by rw [hda.advisory]; exact hi, rfl⟩))
  have := command_writes hp hw
  unfold htmlFile at this
  rw [join_absolute _ _ _ (by decide) rfl] at this
  exact this

/-- An advisory with such categories. -/
def webPaths : List AdvisoryFile :=
  [webAdvisory "RUSTSEC-2021-0001" "foo" [] [] [.other "../../x".toList, .other "/etc/x".toList]]

/-- The hypotheses of `C111_category` are met. -/
example : (renderAdvisories (webEnv [(webFile "RUSTSEC-2021-0001" "foo", 18691)]) webPaths).result.isOk = true ∧
    ((webCommand (webEnv [(webFile "RUSTSEC-2021-0001" "foo", 18691)]) webPaths ["out".toList]).1.map String.ofList) =
      ["out/contributing.html", "out/advisories/RUSTSEC-2021-0001.html", "out/index.html", "out/search.html",
        "out/advisories/index.html", "out/packages/index.html", "out/packages/foo.html", "out/packages/foo.json",
        "out/keywords/index.html", "out/categories/index.html", "out/categories/../../x.html", "/etc/x.html",
        "out/js/index.js", "out/feed.xml"] := by
  decide +kernel

/-- The hypotheses of `C111_draft` are met: `crates/foo//x.md` is for Git the file `crates/foo/x.md`. -/
example : (renderAdvisories (webEnv [("crates/foo//x.md".toList, 18691)]) [webAdvisory "/x" "foo" [] [] []]).result.isOk = true ∧
    "/x.html".toList ∈ (webCommand (webEnv [("crates/foo//x.md".toList, 18691)]) [webAdvisory "/x" "foo" [] [] []] []).1 := by
  decide +kernel

/-- The hypotheses of `C111_inside` are met. -/
example : PlainNames webThreeEnv webThree ∧ (webCommand webThreeEnv webThree []).1.length = 20 ∧
    "_site/categories/memory-corruption.html".toList ∈ (webCommand webThreeEnv webThree []).1 := by
  refine ⟨⟨by decide +kernel, by decide +kernel, by decide +kernel, fun p hp => ?_⟩, by decide +kernel, by decide +kernel⟩
  obtain ⟨f, hf, he⟩ := List.any_eq_true.mp hp
  rw [← beq_iff_eq.mp he]
  have : ∀ f ∈ [(webFile "RUSTSEC-2021-0001" "foo", (18691 : Int)), (webFile "RUSTSEC-2021-0002" "Bar", 18693),
      (webFile "RUSTSEC-2021-0003" "foo", 18702)], "..".toList ∉ splitC '/' f.1 := by decide +kernel
  exact this f hf

end Verif.Props
