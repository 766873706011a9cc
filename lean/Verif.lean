import Verif.Cpp
import Verif.RatioMaths
import Verif.Ratio
import Verif.RatioLemmas
import Verif.CommonRatio
import Verif.Root
import Verif.TypeList
import Verif.Unit
import Verif.Downcast
import Verif.Dim
import Verif.DimLemmas
import Verif.Equivalent
import Verif.Size
import Verif.Num
import Verif.Quantity
import Verif.QuantityLemmas
import Verif.Props.RatioProps
import Verif.Props.TypeListProps
import Verif.Props.UnitProps
import Verif.Props.DimProps
import Verif.Props.EquivalentProps
import Verif.Props.SizeProps
import Verif.Props.ConversionProps
import Verif.Props.ArithProps
import Verif.Props.AssignProps
import Verif.Props.FloatProps
import Verif.Math
import Verif.Props.MathProps
import Verif.Comparable
import Verif.Point
import Verif.Props.PointProps
import Verif.Kind
import Verif.Props.KindProps
import Verif.Reference
import Verif.Props.RefProps
import Verif.FixedString
import Verif.Props.FixedStringProps
import Verif.Text
import Verif.Props.TextProps
import Verif.Props.UnitTextProps
import Verif.Format
import Verif.Props.FormatProps
import Verif.Hacks
import Verif.Props.HacksProps
import Verif.ConstexprMath
import Verif.LogTable
import Verif.LogApprox
import Verif.Rounding
import Verif.ExpApprox
import Verif.Props.ConstexprMathProps
import Verif.Random
import Verif.Props.RandomProps
import Verif.Systems
import Verif.SystemsData
import Verif.DimConcepts
import Verif.Standards
import Verif.SystemsSpec
import Verif.SystemsRows
import Verif.SystemsTable
import Verif.SystemsLoad
import Verif.SystemsCheck
import Verif.SystemsChecked
import Verif.Props.SystemsProps
import Verif.Props.ShippedProps
import Verif.Props.DimArithProps
import Verif.EquivType
import Verif.Props.EquivTypeProps
import Verif.FormatDyn
import Verif.Props.FormatDynProps
import Verif.Ieee
import Verif.IeeeLemmas
import Verif.Props.IeeeProps
import Verif.Props.IeeeShippedProps
import Verif.IeeeArith
import Verif.Props.IeeeArithProps
import Verif.Props.IeeeArithShippedProps
import Verif.Props.ComparableProps
import Verif.Props.DimConceptsProps
import Verif.Construct
import Verif.Props.ConstructProps
import Verif.Conformance
import Verif.ConformanceSystems
import Verif.ConformanceCore
import Verif.ConformanceTemplates
import Verif.Printed
import Verif.ConformanceText
import Verif.ConformanceFormat
import Verif.Symbols
import Verif.SymbolCheck
import Verif.SymbolChecked
import Verif.Props.SymbolReading
import Verif.Props.SymbolProps
import Verif.IeeeOps
import Verif.Props.IeeeOpsProps
import Verif.Representation
import Verif.Props.RepresentationProps
import Verif.RepOps
import Verif.RepStep
import Verif.ConformanceRep
import Verif.Props.RepOpsProps
import Verif.Props.RepStepProps
import Verif.Measurement
import Verif.Props.MeasurementProps
import Verif.Kalman
import Verif.Props.KalmanProps
import Verif.Glide
import Verif.GlideLemmas
import Verif.Props.GlideProps
import Verif.Geographic
import Verif.Props.GeographicProps
import Verif.Classes
import Verif.Props.ClassProps
import Verif.ConformanceClasses
import Verif.External
import Verif.Props.ExternalProps
import Verif.Programs
import Verif.ProgramsLemmas
import Verif.Props.ProgramsProps
import Verif.CommonType
import Verif.Props.CommonTypeProps
import Verif.StringOps
import Verif.Props.StringOpsProps
import Verif.LinearAlgebra
import Verif.Props.LinearAlgebraProps
import Verif.IeeePoint
import Verif.Props.IeeePointProps
import Verif.IeeeMath
import Verif.Props.IeeeMathProps
import Verif.IeeeKalman
import Verif.Props.IeeeKalmanProps
import Verif.Props.UnsignedProps
import Verif.Props.DemosProps
import Verif.IeeeExpr
import Verif.Props.IeeeExprProps
import Verif.IeeeTrack
import Verif.Props.IeeeMixedProps
import Verif.Props.IeeeAccelProps
import Verif.IeeeEnergy
import Verif.Props.IeeeEnergyProps
import Verif.IeeeCapacitor
import Verif.Props.IeeeCapacitorProps
import Verif.IeeeTrack3
import Verif.Props.IeeeTrack3Props
import Verif.IeeeBox
import Verif.Props.IeeeBoxProps
import Verif.IeeeMeasurement
import Verif.Props.IeeeMeasurementProps
import Verif.IeeeLinear
import Verif.Props.IeeeLinearProps
import Verif.IeeeSpeed
import Verif.Props.IeeeSpeedProps
import Verif.IeeeHello
import Verif.Props.IeeeHelloProps
import Verif.IeeeShip
import Verif.Props.IeeeShipProps
import Verif.IeeeDemos
import Verif.Props.IeeeDemosProps
import Verif.IeeeQtyVec
import Verif.Props.IeeeQtyVecProps
