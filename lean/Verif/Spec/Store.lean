import Verif.Model.Store
import Verif.Spec.Profiles
import Verif.Spec.Utils

/-! # Specifications for the parsed data -/

namespace Demod

/-! ## Values -/

mutual
/-- What json files can hold: `None`, booleans, numbers, strings, lists and dictionaries with distinct string
keys. -/
def JsonValue : PyVal → Prop
  | .none | .bool _ | .int _ | .float _ | .str _ => True
  | .list l => JsonValueL l
  | .dict d => JsonValueD d ∧ (d.map (·.1)).Nodup
  | _ => False
/-- All the elements. -/
def JsonValueL : List PyVal → Prop
  | [] => True
  | v :: l => JsonValue v ∧ JsonValueL l
/-- All the items. -/
def JsonValueD : List (PyKey × PyVal) → Prop
  | [] => True
  | (k, v) :: d => (∃ s, k = .str s) ∧ JsonValue v ∧ JsonValueD d
end

mutual
/-- Numbers, strings, and arrays or lists of them. -/
def ArrayLike : PyVal → Prop
  | .bool _ | .int _ | .float _ | .str _ => True
  | .list l => ArrayLikeL l
  | .array l => ArrayLikeL l
  | _ => False
/-- All the elements. -/
def ArrayLikeL : List PyVal → Prop
  | [] => True
  | v :: l => ArrayLike v ∧ ArrayLikeL l
end

mutual
/-- Dictionaries, possibly nested, with distinct string keys, of numbers, strings, arrays and lists. -/
def ArrayTree : PyVal → Prop
  | .dict d => ArrayTreeD d ∧ (d.map (·.1)).Nodup
  | v => ArrayLike v
/-- All the items. -/
def ArrayTreeD : List (PyKey × PyVal) → Prop
  | [] => True
  | (k, v) :: d => (∃ s, k = .str s) ∧ ArrayTree v ∧ ArrayTreeD d
end

mutual
/-- Numpy arrays of numbers or strings. -/
def NumpyArray : PyVal → Prop
  | .bool _ | .int _ | .float _ | .str _ | .npInt _ => True
  | .array l => NumpyArrayL l
  | _ => False
/-- All the elements. -/
def NumpyArrayL : List PyVal → Prop
  | [] => True
  | v :: l => NumpyArray v ∧ NumpyArrayL l
end

mutual
/-- Nothing but dictionaries with keys that are strings or integers, lists, arrays, numbers, strings and `None`. -/
def Dumpable : PyVal → Prop
  | .other => False
  | .list l => DumpableL l
  | .array l => DumpableL l
  | .dict d => DumpableD d
  | _ => True
/-- All the elements. -/
def DumpableL : List PyVal → Prop
  | [] => True
  | v :: l => Dumpable v ∧ DumpableL l
/-- All the items. -/
def DumpableD : List (PyKey × PyVal) → Prop
  | [] => True
  | (k, v) :: d => k ≠ .other ∧ Dumpable v ∧ DumpableD d
end

/-- The values each load method is made for. -/
def Storable (r : Req) (d : List PyVal) (legend : PyVal) : Prop :=
  match r, d with
  | .population _, [a, b, c] => JsonValue a ∧ JsonValue b ∧ JsonValue c
  | .root .appliances, [v] => ArrayTree v ∧ ∃ items t, v = .dict items ∧ (.str "type".toList, t) ∈ items
  | .root .crestLighting, [v] => ArrayTree v
  | .root .bulbs, [a, b] => ArrayLike a ∧ ArrayLike b
  | .root .arma, [v] => JsonValue v
  | .root .geographic, [v] => JsonValue v
  | .root .fisher, [v] => JsonValue v
  | .profiles _, [v] => ∃ p : ProfilesDict PyVal, v = .dict (p.map fun t => (.str t.1, .dict (t.2.map fun n => (.str n.1, n.2)))) ∧
      CleanProfiles p ∧ ∀ t ∈ p, t.2 ≠ [] ∧ ∀ n ∈ t.2, NumpyArray n.2
  | .ownership _, [v] | .historical, [v] | .activityProfiles _, [v] | .stat _ _, [v] =>
      ∃ items : List (Str × PyVal), v = .dict (items.map fun q => (.str q.1, q.2)) ∧ ∀ q ∈ items, NumpyArray q.2
  | .target _ _, [v] => JsonValue v
  | .clearness, [a, b, c] => NumpyArray a ∧ NumpyArray b ∧ JsonValue c
  | .bulbsConfig _, [a] => NumpyArray a
  | .bulbsStats _, [a, b] => JsonValue a ∧ JsonValue b
  | .heating _ _, [v] => ArrayTree v
  | .tpm _, [a, b, c] => (∀ v ∈ [a, b, c], NumpyArray v) ∧ Dumpable legend
  | .tpmWithDuration _, [a, b, c, d, e] => (∀ v ∈ [a, b, c, d, e], NumpyArray v) ∧ Dumpable legend
  | .sparseTpm _, [a, b, c, d, e, f, g] => (∀ v ∈ [a, b, c, d, e, f, g], NumpyArray v) ∧ Dumpable legend
  | _, _ => False

mutual
/-- The same value with every list turned into an array. -/
def withArrays : PyVal → PyVal
  | .list l => .array (withArraysL l)
  | .array l => .array (withArraysL l)
  | .dict d => .dict (withArraysD d)
  | v => v
/-- All the elements. -/
def withArraysL : List PyVal → List PyVal
  | [] => []
  | v :: l => withArrays v :: withArraysL l
/-- All the items. -/
def withArraysD : List (PyKey × PyVal) → List (PyKey × PyVal)
  | [] => []
  | (k, v) :: d => (k, withArrays v) :: withArraysD d
end

/-- What a user gets for the parsed value `d`: the value itself; for the appliances, the lighting, the bulbs and the
heating data the lists are turned into arrays. -/
def Returned (r : Req) (d : List PyVal) : List PyVal :=
  match r with
  | .root .appliances | .root .crestLighting | .root .bulbs | .heating _ _ => d.map withArrays
  | _ => d

/-! ## Requests -/

/-- Two subgroups with the same attributes. -/
def SameSubgroup (s t : Subgroup) : Prop := ∀ k, s.at k = t.at k

/-- Two subgroups with the same attributes, apart from the day of the week and the quarter. -/
def SameApartFromTime (s t : Subgroup) : Prop := ∀ k, k ≠ "weekday".toList → k ≠ "quarter".toList → s.at k = t.at k

/-- Two requests for the same data: python dictionaries do not depend on the order of their items, and the
ownership and the yearly targets of appliances do not depend on the time attributes. -/
def SameRequest : Req → Req → Prop
  | .ownership s, .ownership t => SameApartFromTime s t
  | .target k s, .target k' t => k = k' ∧ SameApartFromTime s t
  | .bulbsConfig s, .bulbsConfig t => SameSubgroup s t
  | .bulbsStats s, .bulbsStats t => SameSubgroup s t
  | .heating k s, .heating k' t => k = k' ∧ SameSubgroup s t
  | .tpm s, .tpm t => SameSubgroup s t
  | .tpmWithDuration s, .tpmWithDuration t => SameSubgroup s t
  | .sparseTpm s, .sparseTpm t => SameSubgroup s t
  | .activityProfiles s, .activityProfiles t => SameSubgroup s t
  | .stat k s, .stat k' t => k = k' ∧ SameSubgroup s t
  | r, r' => r = r'

/-- The subgroup of a request. -/
def Req.subgroup : Req → Subgroup
  | .ownership s | .target _ s | .bulbsConfig s | .bulbsStats s | .heating _ s | .tpm s | .tpmWithDuration s | .sparseTpm s
  | .activityProfiles s | .stat _ s => s
  | _ => []

/-- Requests with a usual subgroup, none of whose attributes is named `activity_profiles…`. -/
def GoodRequest (r : Req) : Prop :=
  Usual r.subgroup ∧ ∀ q ∈ r.subgroup, ¬ "activity_profiles".toList <+: q.1

/-- The activity type is not the name of another folder of parsed data. -/
def GoodActivity (act : Str) : Prop :=
  act ∉ ["".toList, "population".toList, "appliance_ownership".toList, "appliance_targets".toList, "climate".toList, "bulbs".toList,
    "heating".toList]

/-- No dense and sparse matrices for the same subgroup. -/
def NoMixedTpm (rs : List Req) : Prop := ∀ s t, .tpm s ∈ rs → .sparseTpm t ∈ rs → ¬ SameSubgroup s t

/-- Parsing depends only on what is asked. -/
def Consistent (raw : Raw) : Prop := ∀ r r', SameRequest r r' → raw r = raw r'

/-- The request of an event. -/
def Event.requests : Event → List Req
  | .load r => [r]
  | .crash r _ => [r]
  | .clear => []

/-- No file is left half written. -/
def NothingBroken (fs : FS) : Prop := ∀ p, fs p ≠ some .broken

/-- What parsing gives for all these requests is of the kind the load methods are made for. -/
def AllStorable (raw : Raw) (rs : List Req) : Prop := ∀ r ∈ rs, ∀ d legend, raw r = .ok (d, legend) → Storable r d legend

end Demod
