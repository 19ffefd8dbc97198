import Verif.Props.WebSearch
import Verif.Props.WebExamples

/-!
# C101: examples
-/

namespace Verif.Props

open Verif Verif.Lock Verif.Adv Verif.Spec Verif.Web

/-- `Answers`, as a Boolean. -/
def answersB (E : WebEnv) (d : Data) (term : Str) : Bool :=
  (d.advisory.metadata.aliases ++ (d.advisory.metadata.related ++ [d.advisory.metadata.id])).any fun x =>
    decide (E.lower x.string = term)

theorem not_answers {E : WebEnv} {d : Data} {term : Str} (h : answersB E d term = false) : ¬ Answers E d term := by
  rintro ⟨x, hx, he⟩
  have : answersB E d term = true := by
    unfold answersB
    rw [List.any_eq_true]
    refine ⟨x, ?_, decide_eq_true he⟩
    rcases hx with hx | hx | rfl
    · exact List.mem_append_left _ hx
    · exact List.mem_append_right _ (List.mem_append_left _ hx)
    · exact List.mem_append_right _ (List.mem_append_right _ (List.mem_singleton.mpr rfl))
  rw [h] at this
  cases this

theorem webThree_no {term : Str} (h : (webThreeData.all fun d => !answersB webThreeEnv d term) = true) :
    ∀ d ∈ webThreeData, ¬ Answers webThreeEnv d term := fun d hd =>
  not_answers ((Bool.not_eq_true' _).mp (List.all_eq_true.mp h d hd))

/-- The hypotheses of `C101_search` and `C101_constructor` are met by this site. -/
example : List.Forall₂ (Dated webThreeEnv) webThree webThreeData ∧ (renderAdvisories webThreeEnv webThree).result = .ok () ∧
    webThreeEnv.lower "constructor".toList = "constructor".toList ∧
    (∀ d ∈ webThreeData, ¬ Answers webThreeEnv d "__proto__".toList) ∧
    (∀ d ∈ webThreeData, webThreeEnv.lower (packageOf d) ≠ "constructor".toList) ∧
    (∀ d ∈ webThreeData, ¬ Answers webThreeEnv d "constructor".toList) := by
  refine ⟨webThree_dated, webThree_result, by decide +kernel, webThree_no (by decide +kernel), ?_, webThree_no (by decide +kernel)⟩
  have : webThreeData.all (fun d => decide (webThreeEnv.lower (packageOf d) ≠ "constructor".toList)) = true := by decide +kernel
  exact fun d hd => of_decide_eq_true (List.all_eq_true.mp this d hd)

/-- What a visitor of the site comes to. -/
def webThreeTyped (text : String) : Option Visit :=
  match (renderAdvisories webThreeEnv webThree).file ("js".toList, "index.js".toList) with
  | some (.search ids packages) =>
    (globals (indexText ids packages)).bind fun g => typed webThreeEnv.lower g.1 g.2 text.toList
  | _ => none

/-- A package, an advisory, several advisories, nothing, and a text with characters that an address cannot hold. -/
example : webThreeTyped " BAR\n" = some (.address "/packages/bar.html".toList) ∧
    webThreeTyped "rustsec-2021-0003" = some (.address "/advisories/RUSTSEC-2021-0003.html".toList) ∧
    webThreeTyped "CVE-2021-1234" = some (.results "Search results for 'CVE-2021-1234'".toList
      [⟨"/advisories/RUSTSEC-2021-0002.html".toList, "RUSTSEC-2021-0002".toList⟩,
       ⟨"/advisories/RUSTSEC-2021-0001.html".toList, "RUSTSEC-2021-0001".toList⟩]) ∧
    webThreeTyped "50% + é&q=1" = some (.noResults "Search results for '50% + é&q=1'".toList) ∧
    webThreeTyped "constructor" = some (.address "/advisories/undefined.html".toList) ∧
    webThreeTyped "__proto__" = some .exception := by decide +kernel

/-- `C101_query` on a text with odd characters. -/
example : jsTrim " 50% + é&q=1\n".toList = "50% + é&q=1".toList ∧
    queryOf "q".toList (encodeURIComponent "50% + é&q=1".toList) = "q=50%2525%2520%252B%2520%25C3%25A9%2526q%253D1".toList := by decide +kernel

end Verif.Props
