import Verif.Model.CvssText
import Verif.Model.CvssListing
import Verif.Model.CvssV4Score
import Verif.Model.AdvisoryFile

/-!
# The errors of the CVSS parsers

`Verif/Model/CvssText.lean` drops the payloads of errors; here the same parsers are modelled with them.  That both agree is
`C85_same`.
-/

namespace Verif.Cvss

/-- `Error` (cvss/src/error.rs:15-116). -/
inductive Error where
  | invalidComponent (component : Str)
  | invalidMetric (metricType : V3.MetricType) (value : Str)
  | invalidMetricV2 (metricType : V2.MetricType) (value : Str)
  | duplicateMetricV2 (metricType : V2.MetricType)
  | duplicateMetricV3 (metricType : V3.MetricType)
  | missingMandatoryMetricV2 (metricType : V2.MetricType)
  | invalidMetricV4 (metricType : V4.MetricType) (value : Str)
  | missingMandatoryMetricV4 (metricType : V4.MetricType)
  | duplicateMetricV4 (metricType : V4.MetricType)
  | invalidNomenclatureV4 (nomenclature : Str)
  | invalidPrefix (pre : Str)
  | invalidSeverity (name : Str)
  | unknownMetric (name : Str)
  | unsupportedVersion (version : Str)
  deriving DecidableEq

/-- `metric_type.name()`, ` (`, `metric_type.description()`, `)` (cvss/src/error.rs:124-211). -/
def metricLabel (name description : Str) : Str := name ++ " (".toList ++ description ++ ")".toList

/-- `impl Display for Error` (cvss/src/error.rs:118-221). -/
def Error.display : Error → Str
  | .invalidComponent c => "invalid CVSS metric group component: `".toList ++ c ++ "`".toList
  | .invalidMetric m v =>
    "invalid CVSSv3 ".toList ++ metricLabel m.name m.description ++ " metric: `".toList ++ v ++ "`".toList
  | .invalidMetricV2 m v =>
    "invalid CVSSv2 ".toList ++ metricLabel m.name m.description ++ " metric: `".toList ++ v ++ "`".toList
  | .duplicateMetricV2 m => "duplicate CVSSv2 ".toList ++ metricLabel m.name m.description ++ " metric".toList
  | .duplicateMetricV3 m => "duplicate CVSSv3 ".toList ++ metricLabel m.name m.description ++ " metric".toList
  | .missingMandatoryMetricV2 m =>
    "missing mandatory CVSSv2 ".toList ++ metricLabel m.name m.description ++ " metric".toList
  | .invalidMetricV4 m v =>
    "invalid CVSSv4 ".toList ++ metricLabel m.name m.description ++ " metric: `".toList ++ v ++ "`".toList
  | .duplicateMetricV4 m => "duplicate CVSSv4 ".toList ++ metricLabel m.name m.description ++ " metric".toList
  | .missingMandatoryMetricV4 m =>
    "missing mandatory CVSSv4 ".toList ++ metricLabel m.name m.description ++ " metric".toList
  | .invalidNomenclatureV4 n => "invalid CVSSv4 nomenclature: `".toList ++ n ++ "`".toList
  | .invalidPrefix p => "invalid CVSS string prefix: `".toList ++ p ++ "`".toList
  | .invalidSeverity n => "invalid CVSS Qualitative Severity Rating: `".toList ++ n ++ "`".toList
  | .unknownMetric n => "unknown CVSS metric name: `".toList ++ n ++ "`".toList
  | .unsupportedVersion v => "unsupported CVSS version: ".toList ++ v

/-- One component (cvss/src/v2/vector.rs:314-332, cvss/src/v3/base.rs:235-253, cvss/src/v4/vector.rs:308-326). -/
def componentE (s : Str) : Except Error (Str × Str) :=
  match splitC ':' s with
  | [a, b] => .ok (a, b)
  | _ => .error (.invalidComponent s)

/-- `map(component).collect::<Result<Vec<_>>>()`: the first error (cvss/src/v2/vector.rs:312-333,
cvss/src/v3/base.rs:233-254, cvss/src/v4/vector.rs:306-327). -/
def componentsE : List Str → Except Error (List (Str × Str))
  | [] => .ok []
  | t :: ts =>
    match componentE t with
    | .error e => .error e
    | .ok c =>
      match componentsE ts with
      | .error e => .error e
      | .ok cs => .ok (c :: cs)

/-- The errors of a version: an invalid value, a metric given twice, a metric that is missing. -/
structure Blame (S : Scheme) where
  invalid : S.M → Str → Error
  duplicate : S.M → Error
  missing : S.M → Error

/-- One round of the loop (cvss/src/v2/vector.rs:338-376, cvss/src/v3/base.rs:280-306, cvss/src/v4/vector.rs:352-402);
`MetricType::from_str` fails with `UnknownMetric` (cvss/src/v2/metric.rs:137-165, cvss/src/v3/metric.rs:92-108,
cvss/src/v4/metric.rs:190-230), the values with `InvalidMetric…` of their type (e.g. cvss/src/v3/base/av.rs:101-116). -/
def Scheme.stepE {S : Scheme} (B : Blame S) (v : S.Metrics) (c : Str × Str) : Except Error S.Metrics :=
  match lookupStr S.types (S.fold c.1) with
  | none => .error (.unknownMetric (S.fold c.1))
  | some m =>
    match lookupStr (S.valueTable m) (S.fold c.2) with
    | none => .error (B.invalid m (S.fold c.2))
    | some x => if (v m).isSome then .error (B.duplicate m) else .ok (Scheme.set v m x)

/-- The loop over the components. -/
def Scheme.runE {S : Scheme} (B : Blame S) (v : S.Metrics) : List (Str × Str) → Except Error S.Metrics
  | [] => .ok v
  | c :: rest =>
    match Scheme.stepE B v c with
    | .error e => .error e
    | .ok v' => Scheme.runE B v' rest

/-- `check_mandatory_metrics`: the first that is missing (cvss/src/v2/vector.rs:263-280, cvss/src/v4/vector.rs:253-276). -/
def Scheme.checkE {S : Scheme} (B : Blame S) (v : S.Metrics) : List S.M → Except Error Unit
  | [] => .ok ()
  | m :: ms => if (v m).isSome then Scheme.checkE B v ms else .error (B.missing m)

/-- The loop, then `check_mandatory_metrics` (cvss/src/v2/vector.rs:335-380, cvss/src/v4/vector.rs:349-406). -/
def Scheme.readE {S : Scheme} (B : Blame S) (needed : List S.M) (cs : List (Str × Str)) : Except Error S.Metrics :=
  match Scheme.runE B S.empty cs with
  | .error e => .error e
  | .ok v =>
    match Scheme.checkE B v needed with
    | .error e => .error e
    | .ok _ => .ok v

/-- `Result::map`. -/
def mapE {α β : Type} (f : α → β) : Except Error α → Except Error β
  | .ok a => .ok (f a)
  | .error e => .error e

namespace V3

/-- cvss/src/v3/base.rs:280-291 and the metric files (cvss/src/v3/base); no metric is mandatory, so the last is not
used. -/
def blame : Blame scheme := ⟨.invalidMetric, .duplicateMetricV3, .duplicateMetricV3⟩

/-- `impl FromStr for Base` (cvss/src/v3/base.rs:229-310). -/
def Base.parse (s : Str) : Except Error Base :=
  match componentsE (splitC '/' s) with
  | .error e => .error e
  | .ok [] => .error (.invalidPrefix s)
  | .ok ((id, version) :: rest) =>
    if id ≠ "CVSS".toList then .error (.invalidPrefix id)
    else
      match lookupStr minorOf version with
      | none => .error (.unsupportedVersion version)
      | some minor => mapE (fun v => ⟨minor, v⟩) (Scheme.runE blame scheme.empty rest)

end V3

namespace V2

/-- cvss/src/v2/vector.rs:264-268, 338-348 and the metric files (cvss/src/v2/metric). -/
def blame : Blame scheme := ⟨.invalidMetricV2, .duplicateMetricV2, .missingMandatoryMetricV2⟩

/-- `impl FromStr for Vector` (cvss/src/v2/vector.rs:308-382). -/
def Vector.parse (s : Str) : Except Error Vector :=
  match componentsE (splitC '/' s) with
  | .error e => .error e
  | .ok cs => Scheme.readE blame mandatory cs

end V2

namespace V4

/-- cvss/src/v4/vector.rs:254-260, 356-366 and the metric files (cvss/src/v4/metric). -/
def blame : Blame scheme := ⟨.invalidMetricV4, .duplicateMetricV4, .missingMandatoryMetricV4⟩

/-- `impl FromStr for Vector` (cvss/src/v4/vector.rs:302-408). -/
def Vector.parse (s : Str) : Except Error Vector :=
  match componentsE (splitC '/' s) with
  | .error e => .error e
  | .ok [] => .error (.invalidPrefix s)
  | .ok ((id, version) :: rest) =>
    if id ≠ "CVSS".toList then .error (.invalidPrefix id)
    else if version ≠ "4.0".toList then .error (.unsupportedVersion version)
    else mapE (fun v => ⟨0, v⟩) (Scheme.readE blame mandatory rest)

/-- `impl FromStr for Nomenclature` (cvss/src/v4/score.rs:59-73). -/
def Nomenclature.parse (s : Str) : Except Error Nomenclature :=
  match Nomenclature.fromStr s with
  | .ok n => .ok n
  | .err => .error (.invalidNomenclatureV4 s)
  | .panic => .error (.invalidNomenclatureV4 s)

end V4

/-- `impl FromStr for Severity` (cvss/src/severity.rs:55-70). -/
def parseSeverity (s : Str) : Except Error Adv.Severity :=
  match Adv.Severity.fromStr s with
  | some x => .ok x
  | none => .error (.invalidSeverity s)

/-- `impl FromStr for Cvss` (cvss/src/cvss.rs:119-157; all features enabled). -/
def Cvss.parse (s : Str) : Except Error Cvss :=
  match splitOnce '/' s with
  | none => .error (.invalidComponent s)
  | some (id, _) =>
    match splitOnce ':' id with
    | none => .error (.invalidComponent id)
    | some (pre, version) =>
      match splitOnce '.' version with
      | none => mapE Cvss.v20 (V2.Vector.parse s)
      | some (major, minor) =>
        if pre = "CVSS".toList ∧ major = ['3'] ∧ minor = ['0'] then mapE Cvss.v30 (V3.Base.parse s)
        else if pre = "CVSS".toList ∧ major = ['3'] ∧ minor = ['1'] then mapE Cvss.v31 (V3.Base.parse s)
        else if pre = "CVSS".toList ∧ major = ['4'] ∧ minor = ['0'] then mapE Cvss.v40 (V4.Vector.parse s)
        else if pre = "CVSS".toList then .error (.unsupportedVersion version)
        else .error (.invalidPrefix pre)

end Verif.Cvss
