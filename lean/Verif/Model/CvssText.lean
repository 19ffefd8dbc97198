import Verif.Model.CvssV2Metrics
import Verif.Model.CvssV3Metrics
import Verif.Model.CvssV4Metrics

/-!
# CVSS vectors as text: `FromStr` and `Display` of v2, v3, v4 and of `Cvss`

The three versions repeat the same component parser; it is modelled once (`components`, `Scheme.step`), the
three `from_str` and `fmt` functions separately.  A vector is one optional value per metric type, i.e. a
function from metric types to optional values (simplification: the struct has one named field per metric
type instead).  Payloads of errors are dropped.
-/

namespace Verif.Cvss

/-- A Rust `match` on string literals: the first arm whose literal is the string. -/
def lookupStr {α : Type} : List (Str × α) → Str → Option α
  | [], _ => none
  | (lit, x) :: rest, s => if s = lit then some x else lookupStr rest s

/-- `char::to_ascii_uppercase`. -/
def upperChar (c : Char) : Char :=
  if 97 ≤ c.toNat ∧ c.toNat ≤ 122 then Char.ofNat (c.toNat - 32) else c

/-- `str::to_ascii_uppercase`. -/
def upper (s : Str) : Str := s.map upperChar

/-- One component: `component.split(':')` must have exactly two parts.
cvss/src/v2/vector.rs:314-332, cvss/src/v3/base.rs:235-253, cvss/src/v4/vector.rs:308-326. -/
def component (s : Str) : Option (Str × Str) :=
  match splitC ':' s with
  | [a, b] => some (a, b)
  | _ => none

/-- `s.split('/').map(component).collect::<Result<Vec<_>>>()`.  cvss/src/v2/vector.rs:312-333,
cvss/src/v3/base.rs:233-254, cvss/src/v4/vector.rs:306-327. -/
def components (s : Str) : Option (List (Str × Str)) := (splitC '/' s).mapM component

/-- What a CVSS version provides to the shared parser: metric types with names, value types with texts, and
the case folding applied to both sides of a component before they are looked up. -/
structure Scheme where
  /-- metric types -/
  M : Type
  /-- equality of metric types -/
  dec : DecidableEq M
  /-- values of a metric -/
  Val : M → Type
  /-- `MetricType::name` -/
  name : M → Str
  /-- `MetricType::from_str` -/
  types : List (Str × M)
  /-- `as_str` -/
  asStr : (m : M) → Val m → Str
  /-- `FromStr` of the metric's value -/
  valueTable : (m : M) → List (Str × Val m)
  /-- applied to both parts of a component before they are parsed -/
  fold : Str → Str

instance (S : Scheme) : DecidableEq S.M := S.dec

/-- The metrics of a vector: one optional value per metric type. -/
def Scheme.Metrics (S : Scheme) : Type := (m : S.M) → Option (S.Val m)

/-- The vector without metrics (`Default`). -/
def Scheme.empty (S : Scheme) : S.Metrics := fun _ => none

/-- `metrics.field = Some(x)`. -/
def Scheme.set {S : Scheme} (v : S.Metrics) (m : S.M) (x : S.Val m) : S.Metrics :=
  fun m' => if h : m' = m then some (h ▸ x) else v m'

/-- One round of the loop over the components, with `get_value`: the metric type, then the value, then the
check that the metric was not given before.  cvss/src/v2/vector.rs:338-376, cvss/src/v3/base.rs:280-306,
cvss/src/v4/vector.rs:352-402. -/
def Scheme.step {S : Scheme} (v : S.Metrics) (c : Str × Str) : Outcome S.Metrics :=
  match lookupStr S.types (S.fold c.1) with
  | none => .err
  | some m =>
    match lookupStr (S.valueTable m) (S.fold c.2) with
    | none => .err
    | some x => if (v m).isSome then .err else .ok (Scheme.set v m x)

/-- The loop over the components. -/
def Scheme.run {S : Scheme} (v : S.Metrics) : List (Str × Str) → Outcome S.Metrics
  | [] => .ok v
  | c :: rest =>
    match Scheme.step v c with
    | .ok v' => Scheme.run v' rest
    | .err => .err
    | .panic => .panic

/-- `Display` of one metric value: `name:value` (every metric file has the same `fmt`, e.g.
cvss/src/v3/base/av.rs:94-98). -/
def Scheme.show (S : Scheme) (m : S.M) (x : S.Val m) : Str := S.name m ++ ':' :: S.asStr m x

/-- The texts of the metrics that are present, in the given order. -/
def Scheme.shown {S : Scheme} (order : List S.M) (v : S.Metrics) : List Str :=
  order.filterMap fun m => (v m).map (S.show m)

/-- `write_metrics!` of v3 and v4: each metric that is present, after a `/`.
cvss/src/v3/base.rs:209-217, cvss/src/v4/vector.rs:279-287. -/
def slashed (parts : List Str) : Str := (parts.map fun p => '/' :: p).flatten

/-! ## v3 -/

namespace V3

/-- The v3 scheme: identifiers and values are upper-cased before they are looked up
(cvss/src/v3/base.rs:293-294). -/
@[reducible] def scheme : Scheme where
  M := MetricType
  dec := inferInstance
  Val := MetricType.Val
  name := MetricType.name
  types := MetricType.table
  asStr := MetricType.asStr
  valueTable := MetricType.valueTable
  fold := upper

/-- `Base` (cvss/src/v3/base.rs:55-84). -/
structure Base where
  minorVersion : Nat
  metrics : scheme.Metrics

/-- The order of `Display` (cvss/src/v3/base.rs:219-227). -/
def displayOrder : List MetricType := [.AV, .AC, .PR, .UI, .S, .C, .I, .A]

/-- `impl Display for Base` (cvss/src/v3/base.rs:219-227). -/
def Base.display (b : Base) : Str :=
  "CVSS:3.".toList ++ showNat b.minorVersion ++ slashed (Scheme.shown displayOrder b.metrics)

/-- `match version_string` (cvss/src/v3/base.rs:267-278). -/
def minorOf : List (Str × Nat) := [("3.0".toList, 0), ("3.1".toList, 1)]

/-- `impl FromStr for Base` (cvss/src/v3/base.rs:229-310). -/
def Base.fromStr (s : Str) : Outcome Base :=
  match components s with
  | none => .err
  | some [] => .err
  | some ((id, version) :: rest) =>
    if id ≠ "CVSS".toList then .err
    else
      match lookupStr minorOf version with
      | none => .err
      | some minor =>
        match Scheme.run scheme.empty rest with
        | .ok v => .ok ⟨minor, v⟩
        | .err => .err
        | .panic => .panic

end V3

/-! ## v2 -/

namespace V2

/-- The v2 scheme: identifiers and values are taken as they are (cvss/src/v2/vector.rs:351-352). -/
@[reducible] def scheme : Scheme where
  M := MetricType
  dec := inferInstance
  Val := MetricType.Val
  name := MetricType.name
  types := MetricType.table
  asStr := MetricType.asStr
  valueTable := MetricType.valueTable
  fold := id

/-- `Vector` (cvss/src/v2/vector.rs:30-74). -/
abbrev Vector := scheme.Metrics

/-- The order of `Display` (cvss/src/v2/vector.rs:298-306). -/
def displayOrder : List MetricType :=
  [.AV, .AC, .Au, .C, .I, .A, .E, .RL, .RC, .CDP, .TD, .CR, .IR, .AR]

/-- `impl Display for Vector`: the metrics that are present, with a `/` before each but the first
(cvss/src/v2/vector.rs:282-306). -/
def Vector.display (v : Vector) : Str := joinC '/' (Scheme.shown displayOrder v)

/-- The metrics `check_mandatory_metrics` asks for (cvss/src/v2/vector.rs:263-280). -/
def mandatory : List MetricType := [.AV, .AC, .Au, .C, .I, .A]

/-- `impl FromStr for Vector` (cvss/src/v2/vector.rs:308-382). -/
def Vector.fromStr (s : Str) : Outcome Vector :=
  match components s with
  | none => .err
  | some cs =>
    match Scheme.run scheme.empty cs with
    | .ok v => if mandatory.all (fun m => (v m).isSome) then .ok v else .err
    | .err => .err
    | .panic => .panic

end V2

/-! ## v4 -/

namespace V4

/-- The v4 scheme: identifiers and values are upper-cased before they are looked up
(cvss/src/v4/vector.rs:353-354). -/
@[reducible] def scheme : Scheme where
  M := MetricType
  dec := inferInstance
  Val := MetricType.Val
  name := MetricType.name
  types := MetricType.table
  asStr := MetricType.asStr
  valueTable := MetricType.valueTable
  fold := upper

/-- `Vector` (cvss/src/v4/vector.rs:46-116). -/
structure Vector where
  minorVersion : Nat
  metrics : scheme.Metrics

/-- The order of `Display` (cvss/src/v4/vector.rs:289-300). -/
def displayOrder : List MetricType :=
  [.AV, .AC, .AT, .PR, .UI, .VC, .VI, .VA, .SC, .SI, .SA, .E, .CR, .IR, .AR, .MAV, .MAC, .MAT, .MPR, .MUI,
    .MVC, .MVI, .MVA, .MSC, .MSI, .MSA, .S, .AU, .R, .V, .RE, .U]

/-- `impl Display for Vector` (cvss/src/v4/vector.rs:289-300). -/
def Vector.display (v : Vector) : Str :=
  "CVSS:4.".toList ++ showNat v.minorVersion ++ slashed (Scheme.shown displayOrder v.metrics)

/-- The metrics `check_mandatory_metrics` asks for (cvss/src/v4/vector.rs:253-276). -/
def mandatory : List MetricType := [.AC, .AT, .AV, .PR, .SA, .SC, .SI, .UI, .VA, .VC, .VI]

/-- `impl FromStr for Vector` (cvss/src/v4/vector.rs:302-408). -/
def Vector.fromStr (s : Str) : Outcome Vector :=
  match components s with
  | none => .err
  | some [] => .err
  | some ((id, version) :: rest) =>
    if id ≠ "CVSS".toList then .err
    else if version ≠ "4.0".toList then .err
    else
      match Scheme.run scheme.empty rest with
      | .ok v => if mandatory.all (fun m => (v m).isSome) then .ok ⟨0, v⟩ else .err
      | .err => .err
      | .panic => .panic

end V4

/-! ## All versions -/

/-- `Cvss` (cvss/src/cvss.rs:28-42). -/
inductive Cvss where
  | v20 (v : V2.Vector)
  | v30 (b : V3.Base)
  | v31 (b : V3.Base)
  | v40 (v : V4.Vector)

/-- `str::split_once(c)`: before and after the first `c`. -/
def splitOnce (c : Char) : Str → Option (Str × Str)
  | [] => none
  | x :: xs => if x = c then some ([], xs) else (splitOnce c xs).map fun p => (x :: p.1, p.2)

/-- `Result::map`. -/
def Outcome.map {α β : Type} (f : α → β) : Outcome α → Outcome β
  | .ok a => .ok (f a)
  | .err => .err
  | .panic => .panic

/-- `impl FromStr for Cvss` (cvss/src/cvss.rs:119-157; all features enabled). -/
def Cvss.fromStr (s : Str) : Outcome Cvss :=
  match splitOnce '/' s with
  | none => .err
  | some (id, _) =>
    match splitOnce ':' id with
    | none => .err
    | some (pre, version) =>
      match splitOnce '.' version with
      | none => Outcome.map Cvss.v20 (V2.Vector.fromStr s)
      | some (major, minor) =>
        if pre = "CVSS".toList ∧ major = ['3'] ∧ minor = ['0'] then Outcome.map Cvss.v30 (V3.Base.fromStr s)
        else if pre = "CVSS".toList ∧ major = ['3'] ∧ minor = ['1'] then
          Outcome.map Cvss.v31 (V3.Base.fromStr s)
        else if pre = "CVSS".toList ∧ major = ['4'] ∧ minor = ['0'] then
          Outcome.map Cvss.v40 (V4.Vector.fromStr s)
        else .err

/-- `impl Display for Cvss` (cvss/src/cvss.rs:159-172). -/
def Cvss.display : Cvss → Str
  | .v20 v => V2.Vector.display v
  | .v30 b => b.display
  | .v31 b => b.display
  | .v40 v => v.display

end Verif.Cvss
