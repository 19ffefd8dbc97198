import Verif.Spec.CvssText
import Verif.Model.CvssListing

/-!
# The metrics of the three CVSS versions in words

Written from the CVSS v2 guide, the v3.1 and the v4.0 specification documents: for each metric its abbreviation
and its name, and for each of its values the abbreviation and the word for it.  The words are those of the
public enums of the crate.
-/

namespace Verif.Cvss.Spec

/-- A metric: abbreviation, name, and its values (abbreviation and word). -/
structure Metric where
  abbr : String
  name : String
  values : List (String × String)

/-- The three grades of impact in CVSS v2. -/
def impact2 : List (String × String) := [("N", "None"), ("P", "Partial"), ("C", "Complete")]

/-- The three grades of impact in CVSS v3 and v4. -/
def impact3 : List (String × String) := [("N", "None"), ("L", "Low"), ("H", "High")]

/-- Security requirements in CVSS v2. -/
def requirement2 : List (String × String) :=
  [("L", "Low"), ("M", "Medium"), ("H", "High"), ("ND", "NotDefined")]

/-- "Not defined" in CVSS v4, and the given values. -/
def orUndefined (l : List (String × String)) : List (String × String) := ("X", "NotDefined") :: l

/-- CVSS v2. -/
def glossary2 : List Metric :=
  [⟨"AV", "Access Vector", [("L", "Local"), ("A", "AdjacentNetwork"), ("N", "Network")]⟩,
    ⟨"AC", "Access Complexity", [("H", "High"), ("M", "Medium"), ("L", "Low")]⟩,
    ⟨"Au", "Authentication", [("M", "Multiple"), ("S", "Single"), ("N", "None")]⟩,
    ⟨"C", "Confidentiality Impact", impact2⟩,
    ⟨"I", "Integrity Impact", impact2⟩,
    ⟨"A", "Availability Impact", impact2⟩,
    ⟨"E", "Exploitability",
      [("U", "Unproven"), ("POC", "ProofOfConcept"), ("F", "Functional"), ("H", "High"), ("ND", "NotDefined")]⟩,
    ⟨"RL", "Remediation Level",
      [("OF", "OfficialFix"), ("TF", "TemporaryFix"), ("W", "Workaround"), ("U", "Unavailable"),
        ("ND", "NotDefined")]⟩,
    ⟨"RC", "Report Confidence",
      [("UC", "Unconfirmed"), ("UR", "Uncorroborated"), ("C", "Confirmed"), ("ND", "NotDefined")]⟩,
    ⟨"CDP", "Collateral Damage Potential",
      [("N", "None"), ("L", "Low"), ("LM", "LowMedium"), ("MH", "MediumHigh"), ("H", "High"),
        ("ND", "NotDefined")]⟩,
    ⟨"TD", "Target Distribution",
      [("N", "None"), ("L", "Low"), ("M", "Medium"), ("H", "High"), ("ND", "NotDefined")]⟩,
    ⟨"CR", "Confidentiality Requirement", requirement2⟩,
    ⟨"IR", "Integrity Requirement", requirement2⟩,
    ⟨"AR", "Availability Requirement", requirement2⟩]

/-- CVSS v3.0 and v3.1. -/
def glossary3 : List Metric :=
  [⟨"AV", "Attack Vector", [("N", "Network"), ("A", "Adjacent"), ("L", "Local"), ("P", "Physical")]⟩,
    ⟨"AC", "Attack Complexity", [("L", "Low"), ("H", "High")]⟩,
    ⟨"PR", "Privileges Required", impact3⟩,
    ⟨"UI", "User Interaction", [("N", "None"), ("R", "Required")]⟩,
    ⟨"S", "Scope", [("U", "Unchanged"), ("C", "Changed")]⟩,
    ⟨"C", "Confidentiality Impact", impact3⟩,
    ⟨"I", "Integrity Impact", impact3⟩,
    ⟨"A", "Availability Impact", impact3⟩]

/-- Attack vectors of CVSS v4. -/
def vector4 : List (String × String) :=
  [("N", "Network"), ("A", "Adjacent"), ("L", "Local"), ("P", "Physical")]

/-- Grades of a security requirement in CVSS v4. -/
def grade4 : List (String × String) := [("L", "Low"), ("M", "Medium"), ("H", "High")]

/-- Modified impact on the subsequent system: "none" is called negligible there. -/
def subsequent4 : List (String × String) := [("N", "Negligible"), ("L", "Low"), ("H", "High")]

/-- Interaction of the user in CVSS v4. -/
def interaction4 : List (String × String) := [("N", "None"), ("P", "Passive"), ("A", "Active")]

/-- CVSS v4.0. -/
def glossary4 : List Metric :=
  [⟨"AV", "Attack Vector", vector4⟩,
    ⟨"AC", "Attack Complexity", [("L", "Low"), ("H", "High")]⟩,
    ⟨"AT", "Attack Requirements", [("N", "None"), ("P", "Present")]⟩,
    ⟨"PR", "Privileges Required", impact3⟩,
    ⟨"UI", "User Interaction", interaction4⟩,
    ⟨"VC", "Confidentiality Impact to the Vulnerable System", impact3⟩,
    ⟨"VI", "Integrity Impact to the Vulnerable System", impact3⟩,
    ⟨"VA", "Availability Impact to the Vulnerable System", impact3⟩,
    ⟨"SC", "Confidentiality Impact to the Subsequent System", impact3⟩,
    ⟨"SI", "Integrity Impact to the Subsequent System", impact3⟩,
    ⟨"SA", "Availability Impact to the Subsequent System", impact3⟩,
    ⟨"E", "Exploit Maturity",
      orUndefined [("A", "Attacked"), ("P", "ProofOfConcept"), ("U", "Unreported")]⟩,
    ⟨"CR", "Confidentiality Requirements", orUndefined grade4⟩,
    ⟨"IR", "Integrity Requirements", orUndefined grade4⟩,
    ⟨"AR", "Availability Requirements", orUndefined grade4⟩,
    ⟨"MAV", "Modified Attack Vector", orUndefined vector4⟩,
    ⟨"MAC", "Modified Attack Complexity", orUndefined [("L", "Low"), ("H", "High")]⟩,
    ⟨"MAT", "Modified Attack Requirements", orUndefined [("N", "None"), ("P", "Present")]⟩,
    ⟨"MPR", "Modified Privileges Required", orUndefined impact3⟩,
    ⟨"MUI", "Modified User Interaction", orUndefined interaction4⟩,
    ⟨"MVC", "Modified Confidentiality Impact to the Vulnerable System", orUndefined impact3⟩,
    ⟨"MVI", "Modified Integrity Impact to the Vulnerable System", orUndefined impact3⟩,
    ⟨"MVA", "Modified Availability Impact to the Vulnerable System", orUndefined impact3⟩,
    ⟨"MSC", "Modified Confidentiality Impact to the Subsequent System", orUndefined subsequent4⟩,
    ⟨"MSI", "Modified Integrity Impact to the Subsequent System", orUndefined (("S", "Safety") :: subsequent4)⟩,
    ⟨"MSA", "Modified Availability Impact to the Subsequent System",
      orUndefined (("S", "Safety") :: subsequent4)⟩,
    ⟨"S", "Safety", orUndefined [("N", "Negligible"), ("P", "Present")]⟩,
    ⟨"AU", "Automatable", orUndefined [("N", "No"), ("Y", "Yes")]⟩,
    ⟨"R", "Recovery", orUndefined [("A", "Automatic"), ("U", "User"), ("I", "Irrecoverable")]⟩,
    ⟨"V", "Value Density", orUndefined [("D", "Diffuse"), ("C", "Concentrated")]⟩,
    ⟨"RE", "Vulnerability Response Effort", orUndefined [("L", "Low"), ("M", "Moderate"), ("H", "High")]⟩,
    ⟨"U", "Provider Urgency",
      orUndefined [("Clear", "Clear"), ("Green", "Green"), ("Amber", "Amber"), ("Red", "Red")]⟩]

/-- A component of a vector's text says, in words: the metric `m` called `name` has the value `word`. -/
def Says (glossary : List Metric) (same : Str → Str → Prop) (part : Str) (abbr name word : Str) : Prop :=
  ∃ m ∈ glossary, ∃ v ∈ m.values, abbr = m.abbr.toList ∧ name = m.name.toList ∧ word = v.2.toList
    ∧ same part (m.abbr.toList ++ ':' :: v.1.toList)

/-- The glossary of a version. -/
def glossaryOf : Cvss → List Metric
  | .v20 _ => glossary2
  | .v30 _ | .v31 _ => glossary3
  | .v40 _ => glossary4

/-- How texts are compared: exactly in v2, without regard to the case of letters in v3 and v4. -/
def sameIn : Cvss → Str → Str → Prop
  | .v20 _ => (· = ·)
  | .v30 _ | .v31 _ | .v40 _ => SameLetters

/-- The components of a text that hold metrics: all of them in v2, those after the version in v3 and v4. -/
def metricParts (c : Cvss) (s : Str) : List Str :=
  match c with
  | .v20 _ => splitC '/' s
  | .v30 _ | .v31 _ | .v40 _ => (splitC '/' s).tail

end Verif.Cvss.Spec
