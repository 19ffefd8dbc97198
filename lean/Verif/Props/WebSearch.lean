import Verif.Lemmas.WebSearch
import Verif.Props.WebFeed

/-!
# C101: a search on the web site
-/

namespace Verif.Props

open Verif Verif.Lock Verif.Adv Verif.Spec Verif.Web

/-- **C101.**  What a visitor searches for, on any page, is what the search page searches for, whatever characters it has:
it passes through the address of the page unchanged, but for white space at its ends. -/
theorem C101_query (text : Str) :
    ∃ q, queryGet (queryOf "q".toList (encodeURIComponent (jsTrim text))) "q".toList = some q ∧
      decodeURIComponent q = some (jsTrim text) ∧ jsTrim (jsTrim text) = jsTrim text :=
  ⟨_, query_back _, decode_encode _, jsTrim_twice text⟩

private theorem typed_search (lower : Str → Str) (ids packages : Json) (text : Str)
    (hp : includes packages (lower (jsTrim text)) = false) :
    typed lower ids packages text =
      match searchIdsPage ids (jsTrim text) (lower (jsTrim text)) true with
      | .searchPage _ => some (searchIdsPage ids (jsTrim text) (lower (jsTrim text)) false)
      | v => some v := by
  have e : ∀ t b, jsTrim t = jsTrim text → jsSearch lower ids packages t b = searchIdsPage ids (jsTrim text) (lower (jsTrim text)) b := by
    intro t b ht
    unfold jsSearch
    dsimp only
    rw [ht, hp]
    rfl
  unfold typed
  rw [e text true rfl]
  cases hs : searchIdsPage ids (jsTrim text) (lower (jsTrim text)) true with
  | searchPage q =>
    have hq : q = queryOf "q".toList (encodeURIComponent (jsTrim text)) := by
      unfold searchIdsPage at hs
      split at hs
      · cases hs
      · cases hs
      · rw [if_pos rfl] at hs; cases hs; rfl
    dsimp only
    unfold openSearchPage
    rw [hq, query_back]
    dsimp only
    rw [decode_encode]
    dsimp only
    rw [e _ false (jsTrim_twice text)]
  | _ => rfl

private theorem member_own {ids : List (Str × List Id)} (hn : (ids.map Prod.fst).Nodup) {k : Str} {l : List Id} (h : (k, l) ∈ ids) :
    member (idsJson ids) k = some (.own (.arr (l.map fun x => .str x.string))) := by
  unfold member idsJson
  dsimp only
  have hl : ((ids.map fun e => (e.1, Json.arr (e.2.map fun x => .str x.string))).reverse).lookup k =
      some (.arr (l.map fun x => .str x.string)) := by
    rw [lookup_nodup]
    · rw [List.mem_reverse, List.mem_map]
      exact ⟨_, h, rfl⟩
    · rw [List.map_reverse, List.nodup_reverse, List.map_map]
      exact hn
  rw [hl]

private theorem member_none {ids : List (Str × List Id)} {k : Str} (h : ∀ l, (k, l) ∉ ids)
    (h1 : k ≠ "constructor".toList) (h2 : k ≠ "__proto__".toList) : member (idsJson ids) k = none := by
  unfold member idsJson
  dsimp only
  have hl : ((ids.map fun e => (e.1, Json.arr (e.2.map fun x => .str x.string))).reverse).lookup k = none := by
    rw [List.lookup_eq_none_iff]
    intro e he
    rw [List.mem_reverse, List.mem_map] at he
    obtain ⟨x, hx, rfl⟩ := he
    rw [bne_iff_ne]
    rintro rfl
    exact h _ hx
  rw [hl]
  dsimp only
  rw [if_neg h1, if_neg h2]

private theorem page_many {ids : Json} {original term : Str} {a b : Json} {r : List Json} (redirect : Bool)
    (h : member ids term = some (.own (.arr (a :: b :: r)))) :
    searchIdsPage ids original term redirect =
      if redirect then .searchPage (queryOf "q".toList (encodeURIComponent original))
      else .results (heading original) ((a :: b :: r).map fun x => { href := advisoryAddress (jsString x), text := jsString x }) := by
  unfold searchIdsPage
  rw [h]

private theorem two_of_length {α : Type} {l : List α} (h : 2 ≤ l.length) : ∃ a b r, l = a :: b :: r := by
  match l, h with
  | a :: b :: r, _ => exact ⟨a, b, r, rfl⟩

/-- The address of an advisory is that of its file. -/
theorem served_advisory (x : Str) : served (advisoryAddress x) = some (htmlFile "advisories" x) :=
  served_encoded "advisories" (by decide) x

/-- **C101.**  A visitor who types a text in the search form of any page comes to the page of the package of this name; if
there is none, to the page of the advisory with this ID, alias or related ID; if there are several, to the list of them, each
with the address of its page; if there are none, to "No results".  This holds whatever characters the names have, whatever
the order of the index file, for all texts that are not the name of something that every JavaScript object has. -/
theorem C101_search (E : WebEnv) (as : List AdvisoryFile) (ds : List Data) (hd : List.Forall₂ (Dated E) as ds)
    (hr : (renderAdvisories E as).result = .ok ())
    (hproto : ∀ d ∈ ds, ¬ Answers E d "__proto__".toList) :
    ∃ ids packages, (renderAdvisories E as).file ("js".toList, "index.js".toList) = some (.search ids packages) ∧
      ∀ ids' packages', ids'.Perm ids → packages'.Perm packages →
        ∃ gids gpackages, globals (indexText ids' packages') = some (gids, gpackages) ∧ ∀ text,
          ((∃ d ∈ ds, E.lower (packageOf d) = E.lower (jsTrim text)) →
            ∃ url, typed E.lower gids gpackages text = some (.address url) ∧
              served url = some (htmlFile "packages" (E.lower (jsTrim text)))) ∧
          ((∀ d ∈ ds, E.lower (packageOf d) ≠ E.lower (jsTrim text)) →
            ∃ found : List Id,
              (∀ x, x ∈ found ↔ ∃ d ∈ ds, d.advisory.metadata.id = x ∧ Answers E d (E.lower (jsTrim text))) ∧
              (found = [] → E.lower (jsTrim text) ∉ ["constructor".toList, "__proto__".toList] →
                typed E.lower gids gpackages text =
                  some (.noResults ("Search results for '".toList ++ jsTrim text ++ "'".toList))) ∧
              (∀ x, found = [x] → ∃ url, typed E.lower gids gpackages text = some (.address url) ∧
                served url = some (htmlFile "advisories" x.string)) ∧
              (2 ≤ found.length → ∃ links, typed E.lower gids gpackages text =
                  some (.results ("Search results for '".toList ++ jsTrim text ++ "'".toList) links) ∧
                List.Forall₂ (fun x l => l.text = x.string ∧ served l.href = some (htmlFile "advisories" x.string)) found links)) := by
  rw [render_eq hd] at hr ⊢
  refine ⟨searchIds E (newestFirst ds), searchPackages E (newestFirst ds), ?_, fun ids' packages' hi hp => ?_⟩
  · obtain ⟨page, hp, hf⟩ := file_some hr ((steps_js E ds _).mpr rfl) (fun o ho => (steps_js E ds o).mp ho)
    cases hp
    exact hf
  obtain ⟨hnodup, hmem⟩ := mem_searchIds E (newestFirst ds)
  have hmem' : ∀ k l, (k, l) ∈ ids' ↔ l ≠ [] ∧ l = foundIds E (newestFirst ds) k := fun k l => (hi.mem_iff).trans (hmem k l)
  have hn' : (ids'.map Prod.fst).Nodup := (hi.map _).nodup_iff.mpr hnodup
  have hfound : ∀ k x, x ∈ foundIds E (newestFirst ds) k ↔ ∃ d ∈ ds, d.advisory.metadata.id = x ∧ Answers E d k := by
    intro k x
    rw [mem_foundIds]
    simp only [(newestFirst_perm ds).mem_iff]
  refine ⟨_, _, globals_text ids' packages' ?_, fun text => ⟨fun hpk => ?_, fun hpk => ?_⟩⟩
  · rintro ⟨k, l⟩ he rfl
    obtain ⟨h1, h2⟩ := (hmem' _ l).mp he
    obtain ⟨x, hx⟩ := List.exists_mem_of_ne_nil l h1
    rw [h2] at hx
    obtain ⟨d, hdm, -, ha⟩ := (hfound _ x).mp hx
    exact hproto d hdm ha
  · have hin : includes (packagesJson packages') (E.lower (jsTrim text)) = true := by
      rw [includes_iff, hp.mem_iff, mem_searchPackages]
      obtain ⟨d, hdm, he⟩ := hpk
      exact ⟨d, (newestFirst_perm ds).mem_iff.mpr hdm, he⟩
    refine ⟨_, ?_, served_encoded "packages" (by decide) (E.lower (jsTrim text))⟩
    unfold typed jsSearch
    dsimp only
    rw [hin, if_pos rfl]
    rfl
  · have hno : includes (packagesJson packages') (E.lower (jsTrim text)) = false := by
      rw [Bool.eq_false_iff, Ne, includes_iff, hp.mem_iff, mem_searchPackages]
      rintro ⟨d, hdm, he⟩
      exact hpk d ((newestFirst_perm ds).mem_iff.mp hdm) he
    have ht := typed_search E.lower (idsJson ids') (packagesJson packages') text hno
    refine ⟨foundIds E (newestFirst ds) (E.lower (jsTrim text)), hfound _, fun h hb => ?_, fun x h => ?_, fun h => ?_⟩
    · have hm : member (idsJson ids') (E.lower (jsTrim text)) = none := by
        simp only [List.mem_cons, List.not_mem_nil, or_false, not_or] at hb
        refine member_none (fun l hl => ?_) hb.1 hb.2
        obtain ⟨h1, h2⟩ := (hmem' _ l).mp hl
        exact h1 (h2.trans h)
      rw [ht]
      unfold searchIdsPage
      rw [hm]
      rfl
    · have hm := member_own hn' ((hmem' (E.lower (jsTrim text)) [x]).mpr ⟨by simp, h.symm⟩)
      refine ⟨_, ?_, served_advisory x.string⟩
      rw [ht]
      unfold searchIdsPage
      rw [hm]
      rfl
    · obtain ⟨a, b, r, hf⟩ : ∃ a b r, foundIds E (newestFirst ds) (E.lower (jsTrim text)) = a :: b :: r := by
        revert h
        generalize foundIds E (newestFirst ds) (E.lower (jsTrim text)) = l
        exact two_of_length
      have hm := member_own hn' ((hmem' (E.lower (jsTrim text)) (a :: b :: r)).mpr ⟨by simp, hf.symm⟩)
      refine ⟨(a :: b :: r).map fun x => { href := advisoryAddress x.string, text := x.string }, ?_, ?_⟩
      · rw [List.map_cons, List.map_cons] at hm
        rw [ht, page_many true hm, page_many false hm, if_pos rfl, if_neg (by decide)]
        dsimp only
        rw [List.map_cons, List.map_cons, List.map_cons, List.map_cons, List.map_map]
        rfl
      · rw [hf, List.forall₂_map_right_iff]
        exact List.forall₂_same.mpr fun x _ => ⟨rfl, served_advisory x.string⟩

/-- **C101, violation.**  On every site, if no advisory and no package is called `constructor`, a search for it goes to the page of
an advisory called `undefined` instead of "No results". -/
theorem C101_constructor (E : WebEnv) (as : List AdvisoryFile) (ds : List Data) (hd : List.Forall₂ (Dated E) as ds)
    (hr : (renderAdvisories E as).result = .ok ()) (hl : E.lower "constructor".toList = "constructor".toList)
    (hproto : ∀ d ∈ ds, ¬ Answers E d "__proto__".toList)
    (hp : ∀ d ∈ ds, E.lower (packageOf d) ≠ "constructor".toList) (hi : ∀ d ∈ ds, ¬ Answers E d "constructor".toList) :
    ∃ ids packages, (renderAdvisories E as).file ("js".toList, "index.js".toList) = some (.search ids packages) ∧
      ∃ gids gpackages url, globals (indexText ids packages) = some (gids, gpackages) ∧
        typed E.lower gids gpackages "constructor".toList = some (.address url) ∧
        served url = some (htmlFile "advisories" "undefined".toList) := by
  obtain ⟨ids, packages, hj, hall⟩ := C101_search E as ds hd hr hproto
  obtain ⟨gids, gpackages, hg, -⟩ := hall ids packages (.refl _) (.refl _)
  refine ⟨ids, packages, hj, gids, gpackages, advisoryAddress "undefined".toList, hg, ?_, served_advisory _⟩
  rw [render_eq hd] at hr hj
  have hjs : ids = searchIds E (newestFirst ds) ∧ packages = searchPackages E (newestFirst ds) := by
    obtain ⟨page, hp, hf⟩ := file_some hr ((steps_js E ds _).mpr rfl) (fun o ho => (steps_js E ds o).mp ho)
    cases hp
    rw [hj] at hf
    cases hf
    exact ⟨rfl, rfl⟩
  obtain ⟨rfl, rfl⟩ := hjs
  obtain ⟨hnodup, hmem⟩ := mem_searchIds E (newestFirst ds)
  have hpr : ∀ e ∈ searchIds E (newestFirst ds), ∀ k, (∀ d ∈ ds, ¬ Answers E d k) → e.1 ≠ k := by
    rintro ⟨k', l⟩ he k hk rfl
    obtain ⟨h1, h2⟩ := (hmem _ l).mp he
    obtain ⟨x, hx⟩ := List.exists_mem_of_ne_nil l h1
    rw [h2] at hx
    obtain ⟨d, hdm, -, ha⟩ := (mem_foundIds E _ _ x).mp hx
    exact hk d ((newestFirst_perm ds).mem_iff.mp hdm) ha
  rw [globals_text _ _ fun e he => hpr e he _ hproto] at hg
  cases hg
  have htrim : jsTrim "constructor".toList = "constructor".toList := by decide
  have hno : includes (packagesJson (searchPackages E (newestFirst ds))) (E.lower (jsTrim "constructor".toList)) = false := by
    rw [htrim, hl, Bool.eq_false_iff, Ne, includes_iff, mem_searchPackages]
    rintro ⟨d, hdm, he⟩
    exact hp d ((newestFirst_perm ds).mem_iff.mp hdm) he
  rw [typed_search _ _ _ _ hno, htrim, hl]
  have hm : member (idsJson (searchIds E (newestFirst ds))) "constructor".toList = some (.builtin .constructor) := by
    unfold member idsJson
    dsimp only
    have hn : ((searchIds E (newestFirst ds)).map fun e => (e.1, Json.arr (e.2.map fun x => .str x.string))).reverse.lookup
        "constructor".toList = none := by
      rw [List.lookup_eq_none_iff]
      intro e he
      rw [List.mem_reverse, List.mem_map] at he
      obtain ⟨x, hx, rfl⟩ := he
      rw [bne_iff_ne]
      exact fun h => hpr x hx _ hi h.symm
    rw [hn]
    rfl
  unfold searchIdsPage
  rw [hm]

end Verif.Props
