import Lean.Elab.Term
import Verif.Model.State

/-! Model of the units in the output file: the comments of aeolis/constants.py read by `parse_metadata`, aeolis/netcdf.py:415-449. -/

namespace Aeolis.Meta

/-- Texts (lines without the end of line). Used in the code at aeolis/netcdf.py:438-440. -/
abbrev Text := List Char

/-- Notation for a text: the list of its characters. Used for the lines of aeolis/constants.py:30-149. -/
elab "chars! " s:str : term => return Lean.toExpr s.getString.toList

/-- Shortest to longest: everything before the last `]` (group `(.*)` followed by `\]`), aeolis/netcdf.py:440. -/
def beforeBracket : Text → Option Text
  | [] => none
  | c :: cs =>
    match beforeBracket cs with
    | some u => some (c :: u)
    | none => if c = ']' then some [] else none

/-- The part `',\s*#\s*\[(.*)\]` of the pattern: the text in brackets. Models aeolis/netcdf.py:440. -/
def unitsPart : Text → Option Text
  | '\'' :: ',' :: r =>
    match r.dropWhile Char.isWhitespace with
    | '#' :: r =>
      match r.dropWhile Char.isWhitespace with
      | '[' :: r => beforeBracket r
      | _ => none
    | _ => none
  | _ => none

/-- The part `(.*)` for the name followed by `unitsPart`: the longest name for which the rest matches. Models aeolis/netcdf.py:440. -/
def namePart : Text → Option (Text × Text)
  | [] => none
  | c :: cs =>
    match namePart cs with
    | some (n, u) => some (c :: n, u)
    | none => (unitsPart (c :: cs)).map fun u => ([], u)

/-- `re.match('^\s*\'(.*)\',\s*#\s*\[(.*)\]', line)` and its groups, aeolis/netcdf.py:440-442. -/
def matchLine (line : Text) : Option (Text × Text) :=
  match line.dropWhile Char.isWhitespace with
  | '\'' :: r => namePart r
  | _ => none

/-- The units stored for the text in brackets, aeolis/netcdf.py:444-447. -/
def unitsOf (u : Text) : Text := if u = ['-'] then ['1'] else u

/-- Effect of a line on the units of variable `var`, aeolis/netcdf.py:440-447. -/
def lineStep (var : Text) (units : Option Text) (line : Text) : Option Text :=
  match matchLine line with
  | some (n, u) => if n = var then some (unitsOf u) else units
  | none => units

/-- `parse_metadata(...)[var]['units']` for the lines of the file (`none`: the file does not exist), aeolis/netcdf.py:432-449. -/
def parseUnits (lines : Option (List Text)) (var : Text) : Option Text :=
  match lines with
  | none => none
  | some ls => ls.foldl (lineStep var) none

/-- The attribute `units` of the output variable: only set if the text is not empty, aeolis/netcdf.py:272-273. -/
def unitsAttribute (lines : Option (List Text)) (var : Text) : Option Text :=
  match parseUnits lines var with
  | some [] => none
  | u => u

set_option maxRecDepth 10000 in
/-- The lines of aeolis/constants.py:30-149 that begin with a quote (without trailing blanks). The other lines of the file do not match
the pattern, except line 318 with the name `refdate' : '2020-01-01 00:00`, which is no variable. -/
def constantsLines : List Text :=
  [chars! "        'uw',                               # [m/s] Wind velocity",
   chars! "        'uws',                              # [m/s] Component of wind velocity in x-direction",
   chars! "        'uwn',                              # [m/s] Component of wind velocity in y-direction",
   chars! "        'tau',                              # [N/m^2] Wind shear stress",
   chars! "        'taus',                             # [N/m^2] Component of wind shear stress in x-direction",
   chars! "        'taun',                             # [N/m^2] Component of wind shear stress in y-direction",
   chars! "        'tau0',                             # [N/m^2] Wind shear stress over a flat bed",
   chars! "        'taus0',                            # [N/m^2] Component of wind shear stress in x-direction over a flat bed",
   chars! "        'taun0',                            # [N/m^2] Component of wind shear stress in y-direction over a flat bed",
   chars! "        'taus_u',                           # [N/m^2] Saved direction of wind shear stress in x-direction",
   chars! "        'taun_u',                           # [N/m^2] Saved direction of wind shear stress in y-direction",
   chars! "        'dtaus',                            # [-] Component of the wind shear perturbation in x-direction",
   chars! "        'dtaun',                            # [-] Component of the wind shear perturbation in y-direction",
   chars! "        'ustar',                            # [m/s] Wind shear velocity",
   chars! "        'ustars',                           # [m/s] Component of wind shear velocity in x-direction",
   chars! "        'ustarn',                           # [m/s] Component of wind shear velocity in y-direction",
   chars! "        'ustar0',                           # [m/s] Wind shear velocity over a flat bed",
   chars! "        'ustars0',                          # [m/s] Component of wind shear velocity in x-direction over a flat bed",
   chars! "        'ustarn0',                          # [m/s] Component of wind shear velocity in y-direction over a flat bed",
   chars! "        'udir',                             # [rad] Wind direction",
   chars! "        'zs',                               # [m] Water level above reference (or equal to zb if zb > zs)",
   chars! "        'SWL',                              # [m] Still water level above reference",
   chars! "        'Hs',                               # [m] Wave height",
   chars! "        'Hsmix',                            # [m] Wave height for mixing (including setup, TWL)",
   chars! "        'Tp',                               # [s] Wave period for wave runup calculations",
   chars! "        'zne',                              # [m] Non-erodible layer",
   chars! "        'x',                                # [m] Real-world x-coordinate of grid cell center",
   chars! "        'y',                                # [m] Real-world y-coordinate of grid cell center",
   chars! "        'ds',                               # [m] Real-world grid cell size in x-direction",
   chars! "        'dn',                               # [m] Real-world grid cell size in y-direction",
   chars! "        'dsdn',                             # [m^2] Real-world grid cell surface area",
   chars! "        'dsdni',                            # [m^-2] Inverse of real-world grid cell surface area",
   chars! "        'zb',                               # [m] Bed level above reference",
   chars! "        'zs',                               # [m] Water level above reference",
   chars! "        'zne',                              # [m] Height above reference of the non-erodible layer",
   chars! "        'zb0',                              # [m] Initial bed level above reference",
   chars! "        'zdry',                             # [m]",
   chars! "        'dzdry',                            # [m]",
   chars! "        'dzb',                              # [m/dt] Bed level change per time step (computed after avalanching!)",
   chars! "        'dzbyear',                          # [m/yr] Bed level change translated to m/y",
   chars! "        'dzbavg',                           # [m/year] Bed level change averaged over collected time steps",
   chars! "        'S',                                # [-] Level of saturation",
   chars! "        'moist',                      #NEWCH      # [-] Moisture content (volumetric)",
   chars! "        'moist_swr',                  #NEWCH      # [-] Moisture content soil water retention relationship (volumetric)",
   chars! "        'h_delta',                    #NEWCH      # [-] Suction at reversal between wetting/drying conditions",
   chars! "        'gw',                         #NEWCH      # [m] Groundwater level above reference",
   chars! "        'gw_prev',                    #NEWCH      # [m] Groundwater level above reference in previous timestep",
   chars! "        'wetting',                    #NEWCH      # [bool] Flag indicating wetting or drying of soil profile",
   chars! "        'scan_w',                     #NEWCH      # [bool] Flag indicating that the moisture is calculated on the wetting scanning curve",
   chars! "        'scan_d',                     #NEWCH      # [bool] Flag indicating that the moisture is calculated on the drying scanning curve",
   chars! "        'scan_w_moist',               #NEWCH      # [-] Moisture content (volumetric) computed on the wetting scanning curve",
   chars! "        'scan_d_moist',               #NEWCH      # [-] Moisture content (volumetric) computed on the drying scanning curve",
   chars! "        'w_h',                        #NEWCH      # [-] Moisture content (volumetric) computed on the main wetting curve",
   chars! "        'd_h',                        #NEWCH      # [-] Moisture content (volumetric) computed on the main drying curve",
   chars! "        'w_hdelta',                   #NEWCH      # [-] Moisture content (volumetric) computed on the main wetting curve for hdelta",
   chars! "        'd_hdelta',                    #NEWCH      # [-] Moisture content (volumetric) computed on the main drying curve for hdelta",
   chars! "        'ustar',                            # [m/s] Shear velocity by wind",
   chars! "        'ustars',                           # [m/s] Component of shear velocity in x-direction by wind",
   chars! "        'ustarn',                           # [m/s] Component of shear velocity in y-direction by wind",
   chars! "        'ustar0',                           # [m/s] Initial shear velocity (without perturbation)",
   chars! "        'zsep',                             # [m] Z level of polynomial that defines the separation bubble",
   chars! "        'hsep',                             # [m] Height of separation bubbel = difference between z-level of zsep and of the bed level zb",
   chars! "        'theta_stat',                       # [degrees] Updated, spatially varying static angle of repose",
   chars! "        'theta_dyn',                        # [degrees] Updated, spatially varying dynamic angle of repose",
   chars! "        'rhoveg',                           # [-] Vegetation cover",
   chars! "        'drhoveg',                          # Change in vegetation cover",
   chars! "        'hveg',                             # [m] height of vegetation",
   chars! "        'dhveg',                            # [m] Difference in vegetation height per time step",
   chars! "        'dzbveg',                           # [m] Bed level change used for calculation of vegetation growth",
   chars! "        'germinate',                        # vegetation germination",
   chars! "        'lateral',                          # vegetation lateral expansion",
   chars! "        'vegfac',                           # Vegetation factor to modify shear stress by according to Raupach 1993",
   chars! "        'fence_height',                     # Fence height",
   chars! "        'R',                                # [m] wave runup",
   chars! "        'eta',                              # [m] wave setup",
   chars! "        'sigma_s',                          # [m] swash",
   chars! "        'TWL',                              # [m] Total Water Level above reference (SWL + Run-up)",
   chars! "        'SWL',                              # [m] Still Water Level above reference",
   chars! "        'DSWL',                             # [m] Dynamic Still water level above reference (SWL + Set-up)",
   chars! "        'Rti',                              # [-] Factor taking into account sheltering by roughness elements",
   chars! "        'Cu',                               # [kg/m^2] Equilibrium sediment concentration integrated over saltation height",
   chars! "        'Cuf',                              # [kg/m^2] Equilibrium sediment concentration integrated over saltation height, assuming the fluid shear velocity threshold",
   chars! "        'Cu0',                              # [kg/m^2] Flat bad equilibrium sediment concentration integrated over saltation height",
   chars! "        'Ct',                               # [kg/m^2] Instantaneous sediment concentration integrated over saltation height",
   chars! "        'q',                                # [kg/m/s] Instantaneous sediment flux",
   chars! "        'qs',                               # [kg/m/s] Instantaneous sediment flux in x-direction",
   chars! "        'qn',                               # [kg/m/s] Instantaneous sediment flux in y-direction",
   chars! "        'pickup',                           # [kg/m^2] Sediment entrainment",
   chars! "        'w',                                # [-] Weights of sediment fractions",
   chars! "        'w_init',                           # [-] Initial guess for ``w''",
   chars! "        'w_air',                            # [-] Weights of sediment fractions based on grain size distribution in the air",
   chars! "        'w_bed',                            # [-] Weights of sediment fractions based on grain size distribution in the bed",
   chars! "        'uth',                              # [m/s] Shear velocity threshold",
   chars! "        'uthf',                             # [m/s] Fluid shear velocity threshold",
   chars! "        'uth0',                             # [m/s] Shear velocity threshold based on grainsize only (aerodynamic entrainment)",
   chars! "        'u',                                # [m/s] Mean horizontal saltation velocity in saturated state",
   chars! "        'us',                               # [m/s] Component of the saltation velocity in x-direction",
   chars! "        'un',                               # [m/s] Component of the saltation velocity in y-direction",
   chars! "        'u0',",
   chars! "        'thlyr',                            # [m] Bed composition layer thickness",
   chars! "        'salt',                             # [-] Salt content",
   chars! "        'mass',                             # [kg/m^2] Sediment mass in bed"]

end Aeolis.Meta
