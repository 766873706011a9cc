import Verif.Ratio

/-!
# Which classes are units, dimensions, kinds and origins

The class hierarchies of the library and of a program that uses it, deduction of a base class from a pointer, look-up of member types, and the concepts of
units/bits/basic_concepts.h that are defined by them.  The type arguments of `exponent_list` and the symbols are kept as texts, and what a template computes
from its arguments for its base class (the ratio of a prefixed unit, the exponents of a derived dimension) is an argument of the class here.
-/

namespace Verif

/-- The classes: those of a program, those that have nothing to do with the library, and the specializations of the class templates of the library. -/
inductive LibClass where
  /-- A class declared in a program. -/
  | user (name : String)
  /-- A fundamental type, or a class without bases. -/
  | other (name : String)
  /-- `downcast_base<T>`, src/core/include/units/bits/external/downcasting.h:38-46. -/
  | dcBase (t : LibClass)
  /-- `downcast_child<Target, T>`, src/core/include/units/bits/external/downcasting.h:59-63. -/
  | dcChild (target t : LibClass)
  /-- `downcast_poison<T>`, src/core/include/units/bits/external/downcasting.h:65-69. -/
  | dcPoison (t : LibClass)
  /-- `downcast_dispatch<Target, T>`, src/core/include/units/bits/external/downcasting.h:78-85. -/
  | dcDispatch (target t : LibClass)
  /-- `downcast_dispatch<Target, T, downcast_mode::on>`, src/core/include/units/bits/external/downcasting.h:78-85. -/
  | dcDispatchOn (target t : LibClass)
  /-- `prefix_family` and `no_prefix`, src/core/include/units/prefix.h:39, 47. -/
  | prefixFamily
  | noPrefix
  /-- `detail::prefix_base<PF, R>`, src/core/include/units/prefix.h:51-55. -/
  | prefixBase (pf : LibClass) (r : Ratio)
  /-- `prefix<Child, PF, Symbol, R>`, src/core/include/units/prefix.h:74-78. -/
  | prefix (child pf : LibClass) (symbol : String) (r : Ratio)
  /-- `scaled_unit<R, U>`, src/core/include/units/unit.h:53-58. -/
  | scaledUnit (r : Ratio) (u : LibClass)
  /-- `unit<Child>`, src/core/include/units/unit.h:76-80. -/
  | unit (child : LibClass)
  /-- `named_unit<Child, Symbol, PF>`, src/core/include/units/unit.h:94-99. -/
  | namedUnit (child : LibClass) (symbol : String) (pf : LibClass)
  /-- `named_scaled_unit<Child, Symbol, PF, R, U>`, src/core/include/units/unit.h:115-121; `r` and `ref` are `R * U::ratio` and `U::reference`. -/
  | namedScaledUnit (child : LibClass) (symbol : String) (pf u : LibClass) (r : Ratio) (ref : LibClass)
  /-- `prefixed_unit<Child, P, U>`, src/core/include/units/unit.h:134-140; `r` and `ref` are `P::ratio * U::ratio` and `U::reference`. -/
  | prefixedUnit (child p u : LibClass) (r : Ratio) (ref : LibClass)
  /-- `derived_unit<Child, Dim, U, URest...>`, src/core/include/units/unit.h:155-162; `r` is the ratio, `ref` is `Dim::coherent_unit::reference`
  (src/core/include/units/bits/derived_unit.h:53-54). -/
  | derivedUnit (child dim : LibClass) (r : Ratio) (ref : LibClass)
  /-- `named_derived_unit<Child, Dim, Symbol, PF, U, URest...>`, src/core/include/units/unit.h:179-185. -/
  | namedDerivedUnit (child dim : LibClass) (symbol : String) (pf : LibClass) (r : Ratio) (ref : LibClass)
  /-- `alias_unit<U, Symbol, PF>`, src/core/include/units/unit.h:200-205. -/
  | aliasUnit (u : LibClass) (symbol : String) (pf : LibClass)
  /-- `prefixed_alias_unit<U, P, AU>`, src/core/include/units/unit.h:222-228. -/
  | prefixedAliasUnit (u p au : LibClass)
  /-- `base_dimension<Symbol, U>`, src/core/include/units/base_dimension.h:53-58. -/
  | baseDimension (symbol : String) (u : LibClass)
  /-- `detail::derived_dimension_base<Es...>`, src/core/include/units/bits/derived_dimension_base.h:46-50. -/
  | derivedDimensionBase (exponents : String)
  /-- `derived_dimension<Child, U, Es...>`, src/core/include/units/derived_dimension.h:83-88; `exponents` are those of `make_dimension<Es...>`. -/
  | derivedDimension (child u : LibClass) (recipe exponents : String)
  /-- `unknown_coherent_unit`, src/core/include/units/unit.h:235. -/
  | unknownCoherentUnit
  /-- `unknown_dimension<Es...>`, src/core/include/units/bits/dimension_op.h:44-45. -/
  | unknownDimension (recipe exponents : String)
  /-- `point_origin<D>`, src/core/include/units/point_origin.h:29-32. -/
  | pointOrigin (d : LibClass)
  /-- `dynamic_origin<D>`, src/core/include/units/quantity_point.h:44-48. -/
  | dynamicOrigin (d : LibClass)
  /-- `clock_origin<C>`, src/core/include/units/chrono.h:42-43; `dim` is `isq::si::dim_time`. -/
  | clockOrigin (clock dim : LibClass)
  /-- `detail::_kind_base<K, D>`, src/core/include/units/kind.h:35-39. -/
  | kindBase (k d : LibClass)
  /-- `detail::_point_kind_base<K, O>`, src/core/include/units/kind.h:41-46; `dim` is `K::dimension`. -/
  | pointKindBase (k o dim : LibClass)
  /-- `kind<K, D>`, src/core/include/units/kind.h:58-59. -/
  | kind (k d : LibClass)
  /-- `derived_kind<DK, D, BK>`, src/core/include/units/kind.h:61-63. -/
  | derivedKind (dk d bk : LibClass)
  /-- `point_kind<DPK, BK, O>`, src/core/include/units/kind.h:65-66; `dim` is `BK::dimension`. -/
  | pointKind (dpk bk o dim : LibClass)
deriving DecidableEq

namespace LibClass

/-- The class templates to which the concepts of src/core/include/units/bits/basic_concepts.h refer. -/
inductive Tmpl where
  | prefixBase | scaledUnit | baseDimension | derivedDimensionBase | pointOrigin | kindBase | pointKindBase
deriving DecidableEq

/-- The template of a specialization, as far as src/core/include/units/bits/basic_concepts.h asks for it. -/
def tmpl : LibClass → Option Tmpl
  | prefixBase _ _ => some .prefixBase
  | scaledUnit _ _ => some .scaledUnit
  | baseDimension _ _ => some .baseDimension
  | derivedDimensionBase _ => some .derivedDimensionBase
  | pointOrigin _ => some .pointOrigin
  | kindBase _ _ => some .kindBase
  | pointKindBase _ _ _ => some .pointKindBase
  | _ => none

/-- The member types to which the concepts of src/core/include/units/bits/basic_concepts.h refer; `pointOrigin` is the injected class name. -/
inductive Mem where
  | downcastBase | prefixFamily | reference | baseUnit | coherentUnit | dimension | pointOrigin | baseKind | origin
deriving DecidableEq

end LibClass

/-- The rank of a class over given ranks of the classes of a program: greater than the ranks of its bases.  No part of the library. -/
def LibClass.rankWith (user : String → Nat) : LibClass → Nat
  | .user n => user n
  | .dcChild _ t => t.rankWith user + 1
  | .dcPoison t => t.rankWith user + 1
  | .dcDispatch _ t => t.rankWith user + 2
  | .dcDispatchOn _ t => t.rankWith user + 2
  | .noPrefix | .prefixBase _ _ | .scaledUnit _ _ | .derivedDimensionBase _ | .dynamicOrigin _ | .clockOrigin _ _ | .kindBase _ _ | .pointKindBase _ _ _ => 1
  | .prefix _ _ _ _ | .unit _ | .namedUnit _ _ _ | .namedScaledUnit _ _ _ _ _ _ | .prefixedUnit _ _ _ _ _ | .derivedUnit _ _ _ _
  | .namedDerivedUnit _ _ _ _ _ _ | .derivedDimension _ _ _ _ | .kind _ _ | .derivedKind _ _ _ | .pointKind _ _ _ _ => 4
  | .unknownDimension _ _ | .unknownCoherentUnit => 5
  | .aliasUnit u _ _ => u.rankWith user + 1
  | .prefixedAliasUnit u _ _ => u.rankWith user + 1
  | _ => 0

/-- A program that includes the library: the direct bases, member types and `rebind` of the classes it declares, how downcasting is configured, and for which
classes it is off because of a collision (`downcast_mode::automatic`, src/core/include/units/bits/external/downcasting.h:71-85).  A class is declared after its bases. -/
structure Program where
  bases : String → List LibClass
  members : String → LibClass.Mem → Option LibClass
  rebind : String → Option (LibClass → Option LibClass)
  downcastOff : Bool
  poisoned : LibClass → Bool
  rank : String → Nat
  later : ∀ n, ∀ b ∈ bases n, b.rankWith rank < rank n

namespace LibClass

variable (P : Program)

/-- The direct base classes; the lines are those given with the constructors of `LibClass`. -/
def bases : LibClass → List LibClass
  | .user n => P.bases n
  | .other _ | .dcBase _ | .prefixFamily | .baseDimension _ _ | .pointOrigin _ => []
  | .dcChild _ t => [t]
  | .dcPoison t => [t]
  | .dcDispatch c t => if P.downcastOff then [t] else if P.poisoned t then [.dcPoison t] else [.dcChild c t]
  | .dcDispatchOn c t => [.dcChild c t]
  | .noPrefix => [.prefixFamily]
  | .prefixBase pf r => [.dcBase (.prefixBase pf r)]
  | .prefix c pf _ r => [.dcDispatchOn c (.prefixBase pf r)]
  | .scaledUnit r u => [.dcBase (.scaledUnit r u)]
  | .unit c => [.dcDispatch c (.scaledUnit Ratio.one c)]
  | .namedUnit c _ _ => [.dcDispatch c (.scaledUnit Ratio.one c)]
  | .namedScaledUnit c _ _ _ r ref => [.dcDispatch c (.scaledUnit r ref)]
  | .prefixedUnit c _ _ r ref => [.dcDispatch c (.scaledUnit r ref)]
  | .derivedUnit c _ r ref => [.dcDispatch c (.scaledUnit r ref)]
  | .namedDerivedUnit c _ _ _ r ref => [.dcDispatch c (.scaledUnit r ref)]
  | .aliasUnit u _ _ => [u]
  | .prefixedAliasUnit u _ _ => [u]
  | .derivedDimensionBase es => [.dcBase (.derivedDimensionBase es)]
  | .derivedDimension c _ _ es => [.dcDispatch c (.derivedDimensionBase es)]
  | .unknownDimension rs es => [.derivedDimension (.unknownDimension rs es) .unknownCoherentUnit rs es]
  | .unknownCoherentUnit => [.unit .unknownCoherentUnit]
  | .dynamicOrigin d => [.pointOrigin d]
  | .clockOrigin _ d => [.pointOrigin d]
  | .kindBase k d => [.dcBase (.kindBase k d)]
  | .pointKindBase k o d => [.dcBase (.pointKindBase k o d)]
  | .kind k d => [.dcDispatch k (.kindBase k d)]
  | .derivedKind dk d bk => [.dcDispatch dk (.kindBase bk d)]
  | .pointKind dpk bk o d => [.dcDispatch dpk (.pointKindBase bk o d)]

/-- The rank of a class in a program.  No part of the library. -/
def rank (c : LibClass) : Nat := c.rankWith P.rank

/-- The member types declared in the class itself; the lines are those given with the constructors of `LibClass`. -/
def own : LibClass → Mem → Option LibClass
  | .user n, m => P.members n m
  | .dcBase t, .downcastBase => some t
  | .prefixBase pf _, .prefixFamily => some pf
  | .scaledUnit _ u, .reference => some u
  | .unit _, .prefixFamily => some .noPrefix
  | .namedUnit _ _ pf, .prefixFamily => some pf
  | .namedScaledUnit _ _ pf _ _ _, .prefixFamily => some pf
  | .prefixedUnit _ _ _ _ _, .prefixFamily => some .noPrefix
  | .derivedUnit _ _ _ _, .prefixFamily => some .noPrefix
  | .namedDerivedUnit _ _ _ pf _ _, .prefixFamily => some pf
  | .aliasUnit _ _ pf, .prefixFamily => some pf
  | .prefixedAliasUnit _ _ _, .prefixFamily => some .noPrefix
  | .prefixFamily, .prefixFamily => some .prefixFamily
  | .baseDimension _ u, .baseUnit => some u
  | .derivedDimension _ u _ _, .coherentUnit => some u
  | .pointOrigin d, .dimension => some d
  | .pointOrigin d, .pointOrigin => some (.pointOrigin d)
  | .kindBase k _, .baseKind => some k
  | .kindBase _ d, .dimension => some d
  | .pointKindBase k _ _, .baseKind => some k
  | .pointKindBase _ _ d, .dimension => some d
  | .pointKindBase _ o _, .origin => some o
  | _, _ => none

theorem bases_rank {P : Program} {c b : LibClass} (h : b ∈ c.bases P) : b.rank P < c.rank P := by
  cases c <;> simp only [bases] at h
  case user n => exact P.later n b h
  case dcDispatch c t =>
    split at h
    · simp only [List.mem_singleton] at h; subst h; simp only [rank, rankWith]; omega
    · split at h <;> · simp only [List.mem_singleton] at h; subst h; simp only [rank, rankWith]; omega
  all_goals simp only [List.mem_singleton, List.not_mem_nil] at h
  all_goals subst h; simp [rank, rankWith]

/-- The class itself and its base class subobjects, [class.derived] of the C++ standard; a class inherited on two paths occurs twice (the library has no virtual
bases). -/
def subobjects (c : LibClass) : List LibClass := c :: (c.bases P).attach.flatMap fun b => b.1.subobjects
termination_by c.rank P
decreasing_by exact bases_rank b.2

/-- The declarations of a member type that look-up finds, [class.member.lookup] of the C++ standard: the class and the type. -/
def lookup (m : Mem) (c : LibClass) : List (LibClass × LibClass) :=
  match c.own P m with
  | some t => [(c, t)]
  | none => (c.bases P).attach.flatMap fun b => b.1.lookup m
termination_by c.rank P
decreasing_by exact bases_rank b.2

/-- `typename T::m`; none if there is no such member type or the declarations of two classes are found. -/
def member (c : LibClass) (m : Mem) : Option LibClass :=
  match (c.lookup P m).dedup with
  | [x] => some x.2
  | _ => none

/-- The templates `rebind` that look-up finds, with their classes. -/
def rebinds (c : LibClass) : List (LibClass × (LibClass → Option LibClass)) :=
  match c with
  | .dynamicOrigin d => [(.dynamicOrigin d, fun d2 => some (.dynamicOrigin d2))]
  | .user n => match P.rebind n with
    | some f => [(.user n, f)]
    | none => ((LibClass.user n).bases P).attach.flatMap fun b => b.1.rebinds
  | c => (c.bases P).attach.flatMap fun b => b.1.rebinds
termination_by c.rank P
decreasing_by all_goals exact bases_rank b.2

/-- `is_derived_from_specialization_of<T, Type>` and the functions of the same form (`to_prefix_base`, `to_base_scaled_unit`, `to_base_base_dimension`),
src/core/include/units/bits/external/type_traits.h:68-78 and src/core/include/units/bits/basic_concepts.h:57-58, 86-87, 106-107.  Deduction takes the class
itself, or else a base class that is not a base of another candidate ([temp.deduct.call]/4); it fails if there are several, and the conversion of the pointer
fails if there are several subobjects of this class. -/
def derivedFromSpec (t : Tmpl) (c : LibClass) : Bool :=
  if c.tmpl = some t then true
  else
    let cands := ((c.subobjects P).filter fun b => b.tmpl = some t).dedup
    match cands.filter fun b => cands.all fun b' => b' = b || !(b'.subobjects P).contains b with
    | [b] => (c.subobjects P).count b == 1
    | _ => false

/-- `std::derived_from<T, Base>`: a base class or the class itself, of which there is one subobject; used at src/core/include/units/bits/basic_concepts.h:49 and
src/core/include/units/bits/external/downcasting.h:51. -/
def derivedFrom (c base : LibClass) : Bool := (c.subobjects P).count base == 1

/-- `PrefixFamily`, src/core/include/units/bits/basic_concepts.h:48-49. -/
def isPrefixFamily (c : LibClass) : Bool := c.derivedFrom P .prefixFamily

/-- `Prefix`, src/core/include/units/bits/basic_concepts.h:67-68. -/
def isPrefix (c : LibClass) : Bool := c.derivedFromSpec P .prefixBase

/-- `Unit`, src/core/include/units/bits/basic_concepts.h:96-97. -/
def isUnit (c : LibClass) : Bool := c.derivedFromSpec P .scaledUnit

/-- `BaseDimension`, src/core/include/units/bits/basic_concepts.h:116-117. -/
def isBaseDimension (c : LibClass) : Bool := c.derivedFromSpec P .baseDimension

/-- `DerivedDimension`, src/core/include/units/bits/basic_concepts.h:149-150. -/
def isDerivedDimension (c : LibClass) : Bool := c.derivedFromSpec P .derivedDimensionBase

/-- `Dimension`, src/core/include/units/bits/basic_concepts.h:158-159. -/
def isDimension (c : LibClass) : Bool := c.isBaseDimension P || c.isDerivedDimension P

/-- `dimension_unit`, src/core/include/units/bits/basic_concepts.h:164-184. -/
def dimensionUnit (d : LibClass) : Option LibClass :=
  if d.isBaseDimension P then d.member P .baseUnit else if d.isDerivedDimension P then d.member P .coherentUnit else none

/-- `UnitOf`, src/core/include/units/bits/basic_concepts.h:202-206. -/
def isUnitOf (u d : LibClass) : Bool :=
  u.isUnit P && d.isDimension P &&
    match u.member P .reference, (d.dimensionUnit P).bind fun v => v.member P .reference with
    | some r, some s => r = s
    | _, _ => false

/-- `PointOrigin`, src/core/include/units/bits/basic_concepts.h:218-226; `cv` says that the type is qualified with `const` or `volatile`, which matters for
`std::same_as` in line 225 only. -/
def isPointOrigin (cv : Bool) (c : LibClass) : Bool :=
  c.derivedFromSpec P .pointOrigin &&
    match c.member P .dimension with
    | some d => d.isDimension P && c.member P .pointOrigin = some (.pointOrigin d) && (cv || c ≠ .pointOrigin d)
    | none => false

/-- `rebind_point_origin_dimension`, src/core/include/units/bits/basic_concepts.h:230-241; none if it is ill-formed. -/
def rebindTo (c d : LibClass) : Option LibClass :=
  if c.isPointOrigin P false && d.isDimension P then
    if c.member P .dimension = some d then some c
    else match c.rebinds P with
      | [x] => x.2 d
      | _ => none
  else none

/-- `RebindablePointOriginFor`, src/core/include/units/bits/basic_concepts.h:248-252. -/
def rebindable (c d : LibClass) : Bool :=
  match c.rebindTo P d with
  | some o => o.isPointOrigin P false && o.member P .dimension = some d
  | none => false

/-- `kind_impl_`, src/core/include/units/bits/basic_concepts.h:262-269. -/
def kindImpl (t : Tmpl) (c : LibClass) : Bool :=
  c.derivedFromSpec P t && (c.member P .baseKind).isSome &&
    match c.member P .dimension with
    | some d => d.isDimension P
    | none => false

/-- `Kind`, src/core/include/units/bits/basic_concepts.h:276-280. -/
def isKind (c : LibClass) : Bool :=
  c.kindImpl P .kindBase &&
    match c.member P .baseKind with
    | some k => k.kindImpl P .kindBase && k.member P .baseKind = some k
    | none => false

/-- `PointKind`, src/core/include/units/bits/basic_concepts.h:295-301. -/
def isPointKind (c : LibClass) : Bool :=
  c.kindImpl P .pointKindBase &&
    match c.member P .origin, c.member P .dimension, c.member P .baseKind with
    | some o, some d, some k => o.isPointOrigin P false && k.member P .dimension = some d && o.member P .dimension = some d
    | _, _, _ => false

/-- `Downcastable`, src/core/include/units/bits/external/downcasting.h:48-51. -/
def isDowncastable (c : LibClass) : Bool :=
  match c.member P .downcastBase with
  | some t => c.derivedFrom P (.dcBase t)
  | none => false

end LibClass

end Verif
