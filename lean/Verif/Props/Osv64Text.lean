import Verif.Props.Osv64
import Verif.Props.OsvConsumer

/-!
# C98 for the texts of advisories
-/

namespace Verif.Props

open Verif Verif.Semver Verif.Osv Verif.Spec Verif.Adv
open Verif.Osv64 (Build)

/-- **C98, texts.**  For every text of an advisory whose requirements do not contain the greatest number, both builds accept
its versions, tell for every version whether it is vulnerable (exactly if no requirement covers it), and compute the same OSV
events as the model with unbounded numbers. -/
theorem C98_texts {B : Build} (hB : IsBuild B) {L : AdvLib} (hL : UsesSemver L) {text : Str} {f : AdvisoryFile}
    (hf : AdvisoryOf L text f) (hm : BelowMax f) :
    Osv64.Versions.new B f.versions.patched f.versions.unaffected = .ok f.versions ∧
    (∀ v, ∃ b, Osv64.isVulnerable B f.versions v = .ok b ∧ (b = true ↔ LeftExposed f v)) ∧
    Osv64.osvTimeline B f.versions = osvTimeline f.versions := by
  have hs : ∀ r ∈ f.versions.patched ++ f.versions.unaffected, SmallReq r := by
    intro r hr c hc
    have h := read_room hL hf hm r hr c hc
    refine ⟨?_, fun n hn => ?_, fun n hn => ?_⟩
    · have := h.major; omega
    · have := h.minor n hn; omega
    · have := h.patch n hn; omega
  obtain ⟨h1, h2, h3⟩ := C98_same hB _ _ hs
  obtain ⟨v1, v2⟩ := parsed_versions (semver_reqWF hL) ((C68_parsed_iff _ _ _).mpr hf)
  refine ⟨h1.trans v2, fun v => ?_, h3⟩
  exact C98_vulnerable hB _ _ hs v1 _ (h1.trans v2) v

end Verif.Props
