import Verif.Model.Parse

/-!
# The configuration files shipped with the code

Generated by tools/make_examples.py from the files named in the comments (comments of the files left out, `36.0E+9` written `36e9`).
-/

namespace OPE.Shipped

open Parse

/-- A number. -/
noncomputable def num {A : Type} (x : ℝ) : Cfg Scalar A := .scalar (.num (Num.fin x))

/-- examples/example1.yaml:1-66 -/
noncomputable def example1 : Yaml := .dict [
  ("minerals", .dict [
    ("constituents", .list [
      .dict [
        ("material", .dict [("bulk_modulus", num 36e9), ("shear_modulus", num 44e9), ("density", num 2650)]),
        ("fraction", .dict [("column", .str "sand_fraction")])],
      .dict [
        ("material", .dict [("bulk_modulus", num 11e9), ("shear_modulus", num 4.5e9), ("density", num 1)])]])]),
  ("pressure", .dict [
    ("overburden", num 50e6),
    ("fluid", .dict [("column", .str "fluid_pressure")]),
    ("rock", .dict [("column", .str "rock_pressure")])]),
  ("fluids", .dict [
    ("mix_method", .str "wood"),
    ("temperature", num 75),
    ("constituents", .list [
      .dict [
        ("material", .dict [("type", .str "oil"), ("gas_gravity", num 0.5), ("reference_density", num 800), ("gas_oil_ratio", num 153)])],
      .dict [
        ("material", .dict [("type", .str "brine"), ("salinity", num 45000)]),
        ("fraction", .dict [("column", .str "brine_saturation")])],
      .dict [
        ("material", .dict [("type", .str "gas"), ("gas_gravity", num 0.5)]),
        ("fraction", .dict [("column", .str "gas_saturation")])]])]),
  ("dry_rock", .dict [
    ("model", .dict [
      ("type", .str "patchy_cement"),
      ("lower_bound_pressure", num 20e6),
      ("upper_bound_cement_fraction", num 0.1),
      ("cement", .dict [("bulk_modulus", num 36.8e9), ("shear_modulus", num 44e9), ("density", num 2650)]),
      ("shear_reduction", num 0.5),
      ("cement_fraction", num 0.04),
      ("critical_porosity", num 0.4)]),
    ("porosity", .dict [("column", .str "porosity")])])]

/-- examples/example2.yaml:1-97 -/
noncomputable def example2 : Yaml := .dict [
  ("minerals", .dict [
    ("constituents", .list [
      .dict [
        ("material", .dict [("bulk_modulus", num 36e9), ("shear_modulus", num 44e9), ("density", num 2650)]),
        ("fraction", .dict [("column", .str "sand_fraction")])],
      .dict [
        ("material", .dict [("bulk_modulus", num 11e9), ("shear_modulus", num 4.5e9), ("density", num 1)])]])]),
  ("pressure", .dict [
    ("overburden", num 50e6),
    ("reference", num 30e6),
    ("fluid", .dict [("column", .str "fluid_pressure")]),
    ("rock", .dict [("column", .str "rock_pressure")]),
    ("max_effective", num 100e6)]),
  ("fluids", .dict [
    ("mix_method", .str "brie"),
    ("brie_constant", num 3),
    ("temperature", num 75),
    ("constituents", .list [
      .dict [
        ("material", .dict [("type", .str "oil"), ("gas_gravity", num 0.5), ("reference_density", num 800), ("gas_oil_ratio", num 153)])],
      .dict [
        ("material", .dict [("type", .str "brine"), ("salinity", num 45000)]),
        ("fraction", .dict [("column", .str "brine_saturation")])]])]),
  ("dry_rock", .dict [
    ("model", .dict [("type", .str "polyfit")]),
    ("porosity", .dict [("column", .str "porosity")]),
    ("adjustments", .list [
      .dict [
        ("type", .str "pressure_dependency"),
        ("model", .dict [
          ("type", .str "powerfit"),
          ("coefficients", .dict [
            ("bulk_modulus", .list [num 20e9, num (-46)]),
            ("vp_over_vs", .list [num 12, num (-26)]),
            ("density", .list [num 1, num 0])])])],
      .dict [
        ("type", .str "depth_trend"),
        ("depth", .dict [("column", .str "depth")]),
        ("reference_depth", num 0),
        ("max_depth", num 4000),
        ("coefficients", .dict [
          ("bulk_modulus", .list [.list [num 0, num 1.5], .list [num 1, num 0]]),
          ("shear_modulus", .list [.list [num 0, num 1.2], .list [num 1, num 0]]),
          ("density", .list [.list [num 0, num 1.35], .list [num 1, num 0]])])]])])]

/-- examples/example3.yaml:1-77 -/
noncomputable def example3 : Yaml := .dict [
  ("minerals", .dict [
    ("constituents", .list [
      .dict [
        ("material", .dict [("bulk_modulus", num 36e9), ("shear_modulus", num 44e9), ("density", num 2650)]),
        ("fraction", .dict [("column", .str "sand_fraction")])],
      .dict [
        ("material", .dict [("bulk_modulus", num 11e9), ("shear_modulus", num 4.5e9), ("density", num 1)])]])]),
  ("fluids", .dict [
    ("mix_method", .str "brie"),
    ("brie_constant", num 3),
    ("temperature", num 75),
    ("constituents", .list [
      .dict [
        ("material", .dict [("type", .str "oil"), ("gas_gravity", num 0.5), ("reference_density", num 800), ("gas_oil_ratio", num 153)])],
      .dict [
        ("material", .dict [("type", .str "brine"), ("salinity", num 45000)]),
        ("fraction", .dict [("column", .str "brine_saturation")])]])]),
  ("pressure", .dict [
    ("overburden", num 50e6),
    ("reference", num 30e6),
    ("fluid", .dict [("column", .str "fluid_pressure")]),
    ("rock", .dict [("column", .str "rock_pressure")]),
    ("max_effective", num 100e6)]),
  ("dry_rock", .dict [
    ("model", .dict [("type", .str "polyfit")]),
    ("porosity", .dict [("column", .str "porosity")]),
    ("adjustments", .list [
      .dict [
        ("type", .str "pressure_dependency"),
        ("model", .dict [("type", .str "patchy_cement")])],
      .dict [
        ("type", .str "depth_trend"),
        ("depth", .dict [("column", .str "depth")]),
        ("reference_depth", num 0),
        ("max_depth", num 4000),
        ("coefficients", .dict [
          ("bulk_modulus", .list [.list [num 0, num 1.5], .list [num 1, num 0]]),
          ("shear_modulus", .list [.list [num 0, num 1.2], .list [num 1, num 0]]),
          ("density", .list [.list [num 0, num 1.35], .list [num 1, num 0]])])]])])]

/-- examples/example4.yaml:1-61 -/
noncomputable def example4 : Yaml := .dict [
  ("minerals", .dict [
    ("constituents", .list [
      .dict [
        ("material", .dict [("bulk_modulus", num 36e9), ("shear_modulus", num 44e9), ("density", num 2650)]),
        ("fraction", .dict [("column", .str "sand_fraction")])],
      .dict [
        ("material", .dict [("bulk_modulus", num 11e9), ("shear_modulus", num 4.5e9), ("density", num 1)])]])]),
  ("pressure", .dict [
    ("overburden", num 50e6),
    ("fluid", .dict [("column", .str "fluid_pressure")]),
    ("rock", .dict [("column", .str "rock_pressure")])]),
  ("fluids", .dict [
    ("mix_method", .str "wood"),
    ("temperature", num 75),
    ("constituents", .list [
      .dict [
        ("material", .dict [("type", .str "brine"), ("salinity", num 45000)]),
        ("fraction", .dict [("column", .str "brine_saturation")])],
      .dict [
        ("material", .dict [("type", .str "carbon_dioxide"), ("interpolate_density", .scalar (.bool true))]),
        ("fraction", .dict [("column", .str "gas_saturation")]),
        ("fluid_model", .str "span_wagner")]])]),
  ("dry_rock", .dict [
    ("model", .dict [
      ("type", .str "patchy_cement"),
      ("lower_bound_pressure", num 20e6),
      ("upper_bound_cement_fraction", num 0.1),
      ("cement", .dict [("bulk_modulus", num 36.8e9), ("shear_modulus", num 44e9), ("density", num 2650)]),
      ("shear_reduction", num 0.5),
      ("cement_fraction", num 0.04),
      ("critical_porosity", num 0.4)]),
    ("porosity", .dict [("column", .str "porosity")])])]

/-- examples/friable_sand_example.yaml:1-28 -/
noncomputable def friableSand : Yaml := .dict [
  ("minerals", .dict [
    ("constituents", .list [
      .dict [
        ("material", .dict [("bulk_modulus", num 36e9), ("shear_modulus", num 44e9), ("density", num 2650)]),
        ("fraction", num 1)]])]),
  ("fluids", .dict [
    ("constituents", .list [
      .dict [
        ("material", .dict [("bulk_modulus", num 2.3e9), ("shear_modulus", num 0), ("density", num 994.5)])]])]),
  ("dry_rock", .dict [
    ("model", .dict [("type", .str "friable_sand"), ("coordination_number", num 9), ("critical_porosity", num 0.4), ("shear_reduction", num 1)]),
    ("porosity", num 0.3)])]

/-- examples/patchy_cement_example.yaml:1-45 -/
noncomputable def patchyCement : Yaml := .dict [
  ("minerals", .dict [
    ("constituents", .list [
      .dict [
        ("material", .dict [("bulk_modulus", num 36e9), ("shear_modulus", num 44e9), ("density", num 2650)]),
        ("fraction", num 1)]])]),
  ("fluids", .dict [
    ("constituents", .list [
      .dict [
        ("material", .dict [("bulk_modulus", num 2.3e9), ("shear_modulus", num 0), ("density", num 994.5)])]])]),
  ("dry_rock", .dict [
    ("model", .dict [
      ("type", .str "patchy_cement"),
      ("cement", .dict [("bulk_modulus", num 36.8e9), ("shear_modulus", num 44e9), ("density", num 2650)]),
      ("cement_fraction", num 0.04),
      ("lower_bound_pressure", num 20e6),
      ("upper_bound_cement_fraction", num 0.1),
      ("coordination_number", num 9),
      ("critical_porosity", num 0.4),
      ("shear_reduction", num 1)]),
    ("porosity", num 0.3)])]

/-- examples/carbon_dioxide_example.yaml:1-31 -/
noncomputable def carbonDioxide : Yaml := .dict [
  ("pressure", .dict [
    ("overburden", num 50e6),
    ("fluid", .dict [("column", .str "fluid_pressure")]),
    ("rock", .dict [("column", .str "rock_pressure")])]),
  ("fluids", .dict [
    ("temperature", num 75),
    ("fluid_model", .str "span_wagner"),
    ("constituents", .list [
      .dict [
        ("material", .dict [("type", .str "carbon_dioxide"), ("interpolate_density", .scalar (.bool false))])]])]),
  ("dry_rock", .dict [
    ("model", .dict [
      ("type", .str "patchy_cement"),
      ("lower_bound_pressure", num 20e6),
      ("upper_bound_cement_fraction", num 0.1),
      ("cement", .dict [("bulk_modulus", num 36.8e9), ("shear_modulus", num 44e9), ("density", num 2650)]),
      ("shear_reduction", num 0.5),
      ("cement_fraction", num 0.04),
      ("critical_porosity", num 0.4)]),
    ("porosity", .dict [("column", .str "porosity")])])]

/-- src/open_petro_elastic/tutorial_config/tutorial_config.yaml:1-99 -/
noncomputable def tutorial : Yaml := .dict [
  ("minerals", .dict [
    ("constituents", .list [
      .dict [
        ("material", .dict [("bulk_modulus", num 36e9), ("shear_modulus", num 44e9), ("density", num 2650)]),
        ("fraction", .dict [("column", .str "sand_fraction")])],
      .dict [
        ("material", .dict [("bulk_modulus", num 11e9), ("shear_modulus", num 4.5e9), ("density", num 1)])]])]),
  ("fluids", .dict [
    ("temperature", num 75),
    ("constituents", .list [
      .dict [
        ("material", .dict [("type", .str "oil"), ("gas_gravity", num 0.5), ("reference_density", num 800), ("gas_oil_ratio", num 153)])],
      .dict [
        ("material", .dict [("type", .str "brine"), ("salinity", num 45000)]),
        ("fraction", .dict [("column", .str "brine_saturation")])]])]),
  ("pressure", .dict [("overburden", num 50e6), ("reference", num 30e6), ("fluid", num 40e6), ("rock", num 42e6), ("max_effective", num 100e6)]),
  ("dry_rock", .dict [
    ("model", .dict [
      ("type", .str "patchy_cement"),
      ("cement", .dict [("bulk_modulus", num 36.8e9), ("shear_modulus", num 44e9), ("density", num 2650)]),
      ("cement_fraction", num 0.04),
      ("lower_bound_pressure", num 20e6),
      ("upper_bound_cement_fraction", num 0.1),
      ("coordination_number", num 9),
      ("critical_porosity", num 0.4),
      ("shear_reduction", num 1)]),
    ("porosity", num 0.3)])]

/-- tutorial_config/tutorial_config.yaml:1-71 -/
noncomputable def readmeTutorial : Yaml := .dict [
  ("minerals", .dict [
    ("constituents", .list [
      .dict [
        ("material", .dict [("bulk_modulus", num 36e9), ("shear_modulus", num 44e9), ("density", num 2650)]),
        ("fraction", .dict [("column", .str "sand_fraction")])],
      .dict [
        ("material", .dict [("bulk_modulus", num 11e9), ("shear_modulus", num 4.5e9), ("density", num 1)])]])]),
  ("fluids", .dict [
    ("temperature", num 75),
    ("pressure", num 50e6),
    ("constituents", .list [
      .dict [
        ("material", .dict [("type", .str "oil"), ("gas_gravity", num 0.5), ("reference_density", num 800), ("gas_oil_ratio", num 153)])],
      .dict [
        ("material", .dict [("type", .str "brine"), ("salinity", num 45000)]),
        ("fraction", .dict [("column", .str "brine_saturation")])],
      .dict [
        ("material", .dict [("type", .str "condensate"), ("gas_gravity", num 0.5), ("oil_reference_density", num 800), ("gas_oil_ratio", num 150)]),
        ("fraction", .dict [("column", .str "condensate_saturation")])]])]),
  ("dry_rock", .dict [
    ("model", .str "patchy_cement"),
    ("porosity", .dict [("column", .str "porosity")]),
    ("cement", .dict [("bulk_modulus", num 36.8e9), ("shear_modulus", num 44e9), ("density", num 2650)]),
    ("overburden_pressure", num 50e6),
    ("pressure", num 40e6)])]

/-- tutorial_config/example2.yaml:1-71 -/
noncomputable def readmeExample2 : Yaml := .dict [
  ("minerals", .dict [
    ("constituents", .list [
      .dict [
        ("material", .dict [("bulk_modulus", num 36e9), ("shear_modulus", num 44e9), ("density", num 2650)]),
        ("fraction", .dict [("column", .str "sand_fraction")])],
      .dict [
        ("material", .dict [("bulk_modulus", num 11e9), ("shear_modulus", num 4.5e9), ("density", num 1)])]])]),
  ("fluids", .dict [
    ("temperature", num 75),
    ("pressure", num 50e6),
    ("constituents", .list [
      .dict [
        ("material", .dict [("type", .str "oil"), ("gas_gravity", num 0.5), ("reference_density", num 800), ("gas_oil_ratio", num 153)])],
      .dict [
        ("material", .dict [("type", .str "brine"), ("salinity", num 45000)]),
        ("fraction", .dict [("column", .str "brine_saturation")])],
      .dict [
        ("material", .dict [("type", .str "condensate"), ("gas_gravity", num 0.5), ("oil_reference_density", num 800), ("gas_oil_ratio", num 150)]),
        ("fraction", .dict [("column", .str "condensate_saturation")])]])]),
  ("dry_rock", .dict [
    ("model", .str "patchy_cement"),
    ("porosity", .dict [("column", .str "porosity")]),
    ("cement", .dict [("bulk_modulus", num 36.8e9), ("shear_modulus", num 44e9), ("density", num 2650)]),
    ("overburden_pressure", num 50e6),
    ("pressure", num 40e6)])]

/-- docs/getting_started_with_the_config_file_format.md:16-27 -/
noncomputable def docMinerals : Yaml := .dict [
  ("minerals", .dict [
    ("constituents", .list [
      .dict [
        ("material", .dict [("bulk_modulus", num 36e9), ("shear_modulus", num 44e9), ("density", num 2650)]),
        ("fraction", num 0.5)],
      .dict [
        ("material", .dict [("bulk_modulus", num 11e9), ("shear_modulus", num 4.5e9), ("density", num 1)])]])])]

/-- docs/getting_started_with_the_config_file_format.md:36-54 -/
noncomputable def docFluids : Yaml := .dict [
  ("fluids", .dict [
    ("mix_method", .str "wood"),
    ("temperature", num 75),
    ("pressure", num 1000),
    ("constituents", .list [
      .dict [
        ("material", .dict [("type", .str "oil"), ("gas_gravity", num 0.5), ("reference_density", num 800), ("gas_oil_ratio", num 153)])],
      .dict [
        ("material", .dict [("type", .str "brine"), ("salinity", num 45000)]),
        ("fraction", num 0.3)],
      .dict [
        ("material", .dict [("type", .str "gas"), ("gas_gravity", num 0.5)]),
        ("fraction", num 0.3)]])])]

/-- docs/getting_started_with_the_config_file_format.md:66-91 -/
noncomputable def docDryRock : Yaml := .dict [
  ("dry_rock", .dict [
    ("model", .dict [
      ("type", .str "polyfit"),
      ("coefficients", .dict [
        ("density", .list [.list [num 0, num 0], .list [num 1, num (-1)]]),
        ("bulk_modulus", .list [.list [num 2900, num (-1300)]]),
        ("shear_modulus", .list [.list [num 1700, num (-800)]])])]),
    ("porosity", num 0.36),
    ("adjustments", .list [
      .dict [
        ("type", .str "pressure_dependency"),
        ("model", .dict [
          ("type", .str "powerfit"),
          ("overburden_pressure", .str "100.0E6"),
          ("pressure", .str "70.0E+6 Pa"),
          ("reference_pressure", num 30e6),
          ("coefficients", .dict [
            ("bulk_modulus", .list [num 20e9, num (-46)]),
            ("vp_over_vs", .list [num 12, num (-26)]),
            ("density", .list [num 1, num 0])])])],
      .dict [
        ("type", .str "depth_trend"),
        ("depth", num 1000),
        ("reference_depth", num 0),
        ("coefficients", .dict [
          ("bulk_modulus", .list [.list [num 0, num 1.5], .list [num 1, num 0]]),
          ("shear_modulus", .list [.list [num 0, num 1.2], .list [num 1, num 0]]),
          ("density", .list [.list [num 0, num 1.35], .list [num 1, num 0]])])]])])]

/-- docs/getting_started_with_the_config_file_format.md:124-132 -/
noncomputable def docColumns : Yaml := .dict [
  ("minerals", .dict [
    ("constituents", .list [
      .dict [
        ("material", .dict [
          ("bulk_modulus", .dict [("column", .str "shale_k")]),
          ("shear_modulus", .dict [("column", .str "shale_s")]),
          ("density", .dict [("column", .str "shale_r")])])]])])]

/-- docs/getting_started_with_the_config_file_format.md:155-162 -/
noncomputable def docColumns1000 : Yaml := .dict [
  ("minerals", .dict [
    ("constituents", .list [
      .dict [
        ("material", .dict [
          ("bulk_modulus", .dict [("column", .str "shale_k")]),
          ("shear_modulus", .dict [("column", .str "shale_s")]),
          ("density", num 1000)])]])])]

/-- docs/adjusting_with_depth_and_pressure.md:7-61 -/
noncomputable def docAdjusting : Yaml := .dict [
  ("dry_rock", .dict [
    ("model", .dict [("type", .str "polyfit")]),
    ("porosity", .dict [("column", .str "porosity")]),
    ("adjustments", .list [
      .dict [
        ("type", .str "pressure_dependency"),
        ("model", .dict [
          ("type", .str "powerfit"),
          ("coefficients", .dict [
            ("bulk_modulus", .list [num 20e9, num (-46)]),
            ("vp_over_vs", .list [num 12, num (-26)]),
            ("density", .list [num 1, num 0])])])],
      .dict [
        ("type", .str "depth_trend"),
        ("depth", .dict [("column", .str "depth")]),
        ("reference_depth", num 0),
        ("max_depth", num 4000),
        ("coefficients", .dict [
          ("bulk_modulus", .list [.list [num 0, num 1.5], .list [num 1, num 0]]),
          ("shear_modulus", .list [.list [num 0, num 1.2], .list [num 1, num 0]]),
          ("density", .list [.list [num 0, num 1.35], .list [num 1, num 0]])])]])])]

end OPE.Shipped
