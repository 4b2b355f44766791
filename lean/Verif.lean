import Verif.Num
import Verif.Col
import Verif.Model.Material
import Verif.Model.HashinShtrikman
import Verif.Spec.Mixing
import Verif.Props.Material
import Verif.Props.HashinShtrikman
import Verif.Model.Fluid
import Verif.Props.Fluid
import Verif.Model.Sandstone
import Verif.Props.Sandstone
import Verif.Props.Cement
import Verif.Model.Minerals
import Verif.Props.Minerals
import Verif.Model.Poly
import Verif.Props.Poly
import Verif.Model.BatzleWang
import Verif.Props.BatzleWang
import Verif.Props.BatzleWang2
import Verif.Props.BatzleWang3
import Verif.Props.BatzleWang4
import Verif.Model.Fluids
import Verif.Props.Fluids
import Verif.Model.DryRock
import Verif.Props.DryRock
import Verif.Model.Config
import Verif.Spec.Config
import Verif.Props.Config
import Verif.Model.Pipeline
import Verif.Spec.RowWise
import Verif.Props.RowWise
import Verif.Model.Main
import Verif.Spec.Main
import Verif.Props.Main
import Verif.Props.Main2
import Verif.Spec.Float
import Verif.Props.Main3
import Verif.Props.Main4
import Verif.Props.Main5
import Verif.Props.EndToEnd
import Verif.Props.MainExample
import Verif.Model.Parse
import Verif.Spec.Parse
import Verif.Props.Parse
import Verif.Props.Parse2
import Verif.Spec.ParseRows
import Verif.Props.ParseRows
import Verif.Props.ParseRows2
import Verif.Props.ParseRows3
import Verif.Props.MainRaw
import Verif.Model.SpanWagner
import Verif.Spec.SpanWagner
import Verif.Props.SpanWagner
import Verif.Props.SpanWagner2
import Verif.Props.SpanWagner3
import Verif.Props.SpanWagner4
import Verif.Props.SpanWagner5
import Verif.Props.SpanWagner6
import Verif.Model.Shapes
import Verif.Props.Shapes
import Verif.Props.Shapes2
import Verif.Spec.Published
import Verif.Props.Published
import Verif.Props.Published2
import Verif.Props.Published3
import Verif.Props.Published4
import Verif.Props.Published5
import Verif.Props.Published6
import Verif.Props.Published7
import Verif.Spec.Co2
import Verif.Props.SpanWagner7
import Verif.Props.Fractions
import Verif.Props.Fractions2
import Verif.Props.Published8
import Verif.Props.Published9
import Verif.Props.Published10
import Verif.Spec.Adjust
import Verif.Model.Shipped
import Verif.Props.Shipped
import Verif.Props.Shipped2
import Verif.Props.ShippedBounds
import Verif.Props.ShippedBounds2
import Verif.Props.Shipped3
import Verif.Props.Shipped4
import Verif.Props.Shipped5
import Verif.Props.ShippedBounds3
import Verif.Props.Shipped6
import Verif.Props.Shipped7
import Verif.Spec.Document
import Verif.Props.Document
import Verif.Props.Document2
import Verif.Props.Document3
import Verif.Props.Document4
import Verif.Props.Document5
import Verif.Props.Document6
import Verif.Spec.Schema
import Verif.Props.Schema
import Verif.Props.Schema2
import Verif.Props.Coefficients
import Verif.Props.Partials
import Verif.Spec.Order
import Verif.Props.Order
import Verif.Props.Order2
import Verif.Props.Order3
import Verif.Model.CommandLine
import Verif.Props.CommandLine
import Verif.Props.CommandLine2
import Verif.Props.CommandLine3
import Verif.Model.LookupTable
import Verif.Props.LookupTable
import Verif.Props.Density
import Verif.Props.Density2
import Verif.Props.Density3
import Verif.Props.Density4
import Verif.Props.BrieGases
import Verif.Props.Rock
import Verif.Props.Stiffer
import Verif.Props.Units
import Verif.Props.Documented
import Verif.Spec.Rows
import Verif.Props.Rows
import Verif.Props.Trends
import Verif.Props.Porosity
import Verif.Props.Split
import Verif.Props.Continuity
import Verif.Props.Listed
import Verif.Props.Positional
import Verif.Props.DocBlocks
import Verif.Props.Mass
import Verif.Props.Loading
import Verif.Props.Replace
import Verif.Model.Warnings
import Verif.Props.Warnings
import Verif.Model.Registry
import Verif.Props.Registry
import Verif.Props.Indices
import Verif.Spec.Missing
import Verif.Spec.MissingPorosity
import Verif.Spec.MissingFluids
import Verif.Props.Missing
import Verif.Props.Missing2
import Verif.Props.Missing3
import Verif.Props.Missing4
import Verif.Props.Missing5
import Verif.Props.MissingCO2
import Verif.Props.MissingPorosity
import Verif.Props.MissingPorosity2
import Verif.Props.MissingFluids
import Verif.Props.MissingFluids2
import Verif.Spec.Reading
import Verif.Props.Reading
import Verif.Props.Reading2
import Verif.Model.Objects
import Verif.Props.Objects
import Verif.Props.Objects2
import Verif.Props.Objects3
import Verif.Model.Repeat
import Verif.Props.Repeat
import Verif.Spec.Absent
import Verif.Props.Absent
import Verif.Model.RockObjects
import Verif.Props.RockObjects
import Verif.Props.RockObjects2
import Verif.Props.RockObjects3
import Verif.Props.Continuity2
import Verif.Props.Continuity3
import Verif.Props.Continuity4
import Verif.Props.Continuity5
import Verif.Props.Rounding
import Verif.Props.Rounding2
import Verif.Props.Rounding3
import Verif.Props.Rounding4
import Verif.Props.Rounding5
import Verif.Props.Rounding6
import Verif.Props.Rounding7
import Verif.Props.Rounding8
import Verif.Props.Rounding9
import Verif.Props.Rounding10
import Verif.Props.Rounding11
import Verif.Props.Replace2
import Verif.Props.Absent2
import Verif.Props.Rounding12
import Verif.Props.Rounding13
import Verif.Props.Rounding14
import Verif.Spec.FloatRange
import Verif.Props.Rounding15
import Verif.Props.Rounding16
import Verif.Props.Rounding17
import Verif.Props.Rounding18
import Verif.Props.Rounding19
import Verif.Props.Rounding20
import Verif.Props.Rounding21
import Verif.Props.Stiffening
import Verif.Props.HotOil
import Verif.Props.Trends2
import Verif.Props.Trends3
import Verif.Props.MissingPorosity3
import Verif.Props.Reading3
import Verif.Props.Saltier
import Verif.Props.GasStiffness
import Verif.Props.Depletion
import Verif.Props.GasHeat
import Verif.Props.Rounding22
import Verif.Props.Rounding23
import Verif.Props.Rounding24
import Verif.Props.Rounding25
import Verif.Props.Rounding26
import Verif.Props.Rounding27
import Verif.Props.Rounding28
import Verif.Props.Rounding29
import Verif.Props.Rounding30
import Verif.Props.Rounding31
import Verif.Props.Rounding32
import Verif.Props.Rounding33
import Verif.Props.Rounding34
import Verif.Props.Rounding35
import Verif.Props.Rounding36
import Verif.Props.Rounding37
