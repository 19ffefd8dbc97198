import Verif.Model.CvssError
import Verif.Spec.CvssText
import Verif.Spec.CvssListing

/-!
# What is wrong with a text that is not a CVSS vector

The faults of a text, in the order in which a reader would look for them: its shape, its prefix, then the first bad
component, then the first metric that is missing.
-/

namespace Verif.Cvss.Spec

/-- The text is `name:value`. -/
def IsPair (t name value : Str) : Prop := t = name ++ ':' :: value ∧ ':' ∉ name ∧ ':' ∉ value

/-- The pieces between the slashes. -/
def Pieces (s : Str) (parts : List Str) : Prop := s = joinC '/' parts ∧ parts ≠ [] ∧ ∀ p ∈ parts, '/' ∉ p

/-- `t` is the first piece that is not `name:value`. -/
def FirstShapeless (parts : List Str) (t : Str) : Prop :=
  ∃ l r, parts = l ++ t :: r ∧ (∀ p ∈ l, ∃ n v, IsPair p n v) ∧ ¬ ∃ n v, IsPair t n v

/-- All pieces are `name:value`. -/
def Shaped (parts : List Str) : Prop := ∀ p ∈ parts, ∃ n v, IsPair p n v

/-- The three things that can be wrong with one component. -/
inductive Fault (M : Type) where
  /-- There is no metric of this name. -/
  | unknown (name : Str)
  /-- The metric has no such value. -/
  | invalid (m : M) (value : Str)
  /-- The metric was given before. -/
  | twice (m : M)

/-- The component `name:value` after the metrics `v` is at fault.  `written` is how names and values are reported. -/
inductive AtFault {S : Scheme} (same : Str → Str → Prop) (written : Str → Str) (v : S.Metrics) (name value : Str) :
    Fault S.M → Prop
  | unknown (h : ∀ m, ¬ same name (S.name m)) : AtFault same written v name value (.unknown (written name))
  | invalid (m : S.M) (h : same name (S.name m)) (hv : ∀ x, ¬ same value (S.asStr m x)) :
    AtFault same written v name value (.invalid m (written value))
  | twice (m : S.M) (x : S.Val m) (h : same name (S.name m)) (hx : same value (S.asStr m x)) (ht : v m ≠ none) :
    AtFault same written v name value (.twice m)

/-- The first component at fault: those before it give metrics. -/
def FirstFault {S : Scheme} (same : Str → Str → Prop) (written : Str → Str) (parts : List Str) (f : Fault S.M) : Prop :=
  ∃ l t r name value, parts = l ++ t :: r ∧ IsPair t name value ∧ ∃ v : S.Metrics, Gives same l v ∧
    AtFault same written v name value f

/-- All components are good, but `m` is the first metric of the list that is not given. -/
def FirstMissing {S : Scheme} (same : Str → Str → Prop) (needed : List S.M) (parts : List Str) (m : S.M) : Prop :=
  ∃ v : S.Metrics, Gives same parts v ∧ ∃ l r, needed = l ++ m :: r ∧ (∀ k ∈ l, v k ≠ none) ∧ v m = none

/-- The error that reports a fault in a v3 text. -/
def fault3 : Fault V3.MetricType → Error
  | .unknown n => .unknownMetric n
  | .invalid m v => .invalidMetric m v
  | .twice m => .duplicateMetricV3 m

/-- The error that reports a fault in a v2 text. -/
def fault2 : Fault V2.MetricType → Error
  | .unknown n => .unknownMetric n
  | .invalid m v => .invalidMetricV2 m v
  | .twice m => .duplicateMetricV2 m

/-- The error that reports a fault in a v4 text. -/
def fault4 : Fault V4.MetricType → Error
  | .unknown n => .unknownMetric n
  | .invalid m v => .invalidMetricV4 m v
  | .twice m => .duplicateMetricV4 m

/-- Names and values are reported in capitals. -/
def capitals (s : Str) : Str := s.map Char.toUpper

/-- What is wrong with a text as a CVSS v3 vector. -/
inductive Wrong3 (parts : List Str) : Error → Prop
  | shape (t : Str) (h : FirstShapeless parts t) : Wrong3 parts (.invalidComponent t)
  | pre (h : Shaped parts) (p : Str) (rest : List Str) (pre version : Str) (e : parts = p :: rest)
    (hp : IsPair p pre version) (hne : pre ≠ "CVSS".toList) : Wrong3 parts (.invalidPrefix pre)
  | version (h : Shaped parts) (rest : List Str) (version : Str) (e : parts = ("CVSS:".toList ++ version) :: rest)
    (h0 : version ≠ "3.0".toList) (h1 : version ≠ "3.1".toList) : Wrong3 parts (.unsupportedVersion version)
  | fault (h : Shaped parts) (p : Str) (rest : List Str) (e : parts = p :: rest)
    (hp : p = "CVSS:3.0".toList ∨ p = "CVSS:3.1".toList) (f : Fault V3.MetricType)
    (hf : FirstFault (S := V3.scheme) SameLetters capitals rest f) : Wrong3 parts (fault3 f)

/-- What is wrong with a text as a CVSS v2 vector. -/
inductive Wrong2 (parts : List Str) : Error → Prop
  | shape (t : Str) (h : FirstShapeless parts t) : Wrong2 parts (.invalidComponent t)
  | fault (h : Shaped parts) (f : Fault V2.MetricType) (hf : FirstFault (S := V2.scheme) (· = ·) id parts f) :
    Wrong2 parts (fault2 f)
  | missing (h : Shaped parts) (m : V2.MetricType)
    (hm : FirstMissing (S := V2.scheme) (· = ·) [.AV, .AC, .Au, .C, .I, .A] parts m) :
    Wrong2 parts (.missingMandatoryMetricV2 m)

/-- What is wrong with a text as a CVSS v4 vector.  Missing metrics are looked for in the order of their names. -/
inductive Wrong4 (parts : List Str) : Error → Prop
  | shape (t : Str) (h : FirstShapeless parts t) : Wrong4 parts (.invalidComponent t)
  | pre (h : Shaped parts) (p : Str) (rest : List Str) (pre version : Str) (e : parts = p :: rest)
    (hp : IsPair p pre version) (hne : pre ≠ "CVSS".toList) : Wrong4 parts (.invalidPrefix pre)
  | version (h : Shaped parts) (rest : List Str) (version : Str) (e : parts = ("CVSS:".toList ++ version) :: rest)
    (h0 : version ≠ "4.0".toList) : Wrong4 parts (.unsupportedVersion version)
  | fault (h : Shaped parts) (rest : List Str) (e : parts = "CVSS:4.0".toList :: rest)
    (f : Fault V4.MetricType) (hf : FirstFault (S := V4.scheme) SameLetters capitals rest f) : Wrong4 parts (fault4 f)
  | missing (h : Shaped parts) (rest : List Str) (e : parts = "CVSS:4.0".toList :: rest) (m : V4.MetricType)
    (hm : FirstMissing (S := V4.scheme) SameLetters [.AC, .AT, .AV, .PR, .SA, .SC, .SI, .UI, .VA, .VC, .VI] rest m) :
    Wrong4 parts (.missingMandatoryMetricV4 m)

/-- What is wrong with a text as a CVSS vector of any version: the version is that of the first piece, and a text without a
version number is one of CVSS v2. -/
inductive Wrong (s : Str) : Error → Prop
  | noSlash (h : '/' ∉ s) : Wrong s (.invalidComponent s)
  | noColon (p : Str) (rest : List Str) (h : Pieces s (p :: rest)) (hr : rest ≠ []) (hc : ':' ∉ p) :
    Wrong s (.invalidComponent p)
  | v2 (p : Str) (rest : List Str) (h : Pieces s (p :: rest)) (hr : rest ≠ []) (pre version : Str)
    (hp : p = pre ++ ':' :: version) (hc : ':' ∉ pre) (hd : '.' ∉ version) (e : Error) (he : Wrong2 (p :: rest) e) :
    Wrong s e
  | v3 (p : Str) (rest : List Str) (h : Pieces s (p :: rest)) (hr : rest ≠ [])
    (hp : p = "CVSS:3.0".toList ∨ p = "CVSS:3.1".toList) (e : Error) (he : Wrong3 (p :: rest) e) : Wrong s e
  | v4 (rest : List Str) (h : Pieces s ("CVSS:4.0".toList :: rest)) (hr : rest ≠ []) (e : Error)
    (he : Wrong4 ("CVSS:4.0".toList :: rest) e) : Wrong s e
  | version (version : Str) (rest : List Str) (h : Pieces s (("CVSS:".toList ++ version) :: rest)) (hr : rest ≠ [])
    (hd : '.' ∈ version) (h0 : version ≠ "3.0".toList) (h1 : version ≠ "3.1".toList) (h4 : version ≠ "4.0".toList) :
    Wrong s (.unsupportedVersion version)
  | pre (p : Str) (rest : List Str) (h : Pieces s (p :: rest)) (hr : rest ≠ []) (pre version : Str)
    (hp : p = pre ++ ':' :: version) (hc : ':' ∉ pre) (hd : '.' ∈ version) (hne : pre ≠ "CVSS".toList) :
    Wrong s (.invalidPrefix pre)

/-- `abbr (name)` of the metric of this abbreviation in a glossary, between two texts. -/
def Tells (glossary : List Metric) (abbr before after text : Str) : Prop :=
  ∃ g ∈ glossary, abbr = g.abbr.toList ∧
    text = before ++ (g.abbr.toList ++ (" (".toList ++ (g.name.toList ++ (")".toList ++ after))))

/-- The message of an error. -/
def Message : Error → Str → Prop
  | .invalidComponent c, t => t = "invalid CVSS metric group component: `".toList ++ c ++ "`".toList
  | .invalidPrefix p, t => t = "invalid CVSS string prefix: `".toList ++ p ++ "`".toList
  | .unsupportedVersion v, t => t = "unsupported CVSS version: ".toList ++ v
  | .unknownMetric n, t => t = "unknown CVSS metric name: `".toList ++ n ++ "`".toList
  | .invalidSeverity n, t => t = "invalid CVSS Qualitative Severity Rating: `".toList ++ n ++ "`".toList
  | .invalidNomenclatureV4 n, t => t = "invalid CVSSv4 nomenclature: `".toList ++ n ++ "`".toList
  | .invalidMetricV2 m v, t =>
    Tells glossary2 m.name "invalid CVSSv2 ".toList (" metric: `".toList ++ (v ++ "`".toList)) t
  | .invalidMetric m v, t =>
    Tells glossary3 m.name "invalid CVSSv3 ".toList (" metric: `".toList ++ (v ++ "`".toList)) t
  | .invalidMetricV4 m v, t =>
    Tells glossary4 m.name "invalid CVSSv4 ".toList (" metric: `".toList ++ (v ++ "`".toList)) t
  | .duplicateMetricV2 m, t => Tells glossary2 m.name "duplicate CVSSv2 ".toList " metric".toList t
  | .duplicateMetricV3 m, t => Tells glossary3 m.name "duplicate CVSSv3 ".toList " metric".toList t
  | .duplicateMetricV4 m, t => Tells glossary4 m.name "duplicate CVSSv4 ".toList " metric".toList t
  | .missingMandatoryMetricV2 m, t => Tells glossary2 m.name "missing mandatory CVSSv2 ".toList " metric".toList t
  | .missingMandatoryMetricV4 m, t => Tells glossary4 m.name "missing mandatory CVSSv4 ".toList " metric".toList t

end Verif.Cvss.Spec
