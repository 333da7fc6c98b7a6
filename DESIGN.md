# Formal model of Reaktoro in Lean 4

## 1. What this is

`lean/Verif` holds a function-by-function model of parts of Reaktoro (C++), a small
specification for each property of `properties.jsonl`, and machine-checked theorems
that the model has (or does not have) that property. Nothing here runs the C++ code: the
link between code and model is the citation `file:lines` on every definition.

Layout

| directory | content |
|---|---|
| `Verif/Model/*.lean` | the model: one definition per modelled C++ function, with citation |
| `Verif/Spec/*.lean` | independent specifications, not using the model's helpers |
| `Verif/Lemmas/*.lean` | helper lemmas and proofs |
| `Verif/Theorems/*.lean` | the property theorems, each with an `example` meeting its hypotheses |

## 2. Trusted base

* Lean 4.33.0's kernel, and the reading of `/repo` recorded in the citations.
* Axioms: at most `propext`, `Classical.choice`, `Quot.sound` (checked with `#print axioms`).
  No axioms of our own, no `sorry`, no `native_decide`, no `bv_decide`.
* Mathlib (single modules) for real analysis, linear algebra and tactics.

## 3. Modelling conventions

* **Numbers.** `double`/`real` are exact numbers: a field, `ℚ` or `ℝ`. Rounding, overflow, NaN and
  infinities are not modelled. Where the code divides by a quantity, the theorem carries the guard
  that it is non-zero, or the model returns a distinct outcome; Lean's `x/0 = 0` is never relied on.
  Autodiff seeds in `real` are not modelled, except where the property is about derivatives, which are then
  genuine derivatives (`HasDerivAt`).
* **Text.** `std::string` is `List Char`; characters are the ASCII ones the code inspects.
* **Outcomes.** `Res α = ok a | throw | ub`: normal return, C++ exception (including `error`/`errorif`),
  and undefined behaviour (out-of-range access, reading uninitialised data, infinite recursion).
  `assert` is undefined behaviour when it fails with `NDEBUG` unless what follows is defined, in which
  case the model has a `debug : Bool` parameter.
* **State.** Mutation through `this`/references becomes a function returning the new state; where an
  exception can leave a partially updated object the model returns the state *and* the outcome.
  Shared pointers (`Param`) are cells of an explicit heap.
* **External code** (Optima, autodiff, Eigen, yaml-cpp, PHREEQC, ThermoFun) is a parameter of the model
  or excluded; assumptions are written in the theorem's hypotheses.

## 4. Plan per property

| id | modelled | shape of proof |
|---|---|---|
| C01–C04 | the three memoization wrappers as state machines with the global switch, wrapped functions may throw | invariant by induction on the operation list; counterexamples where the code is wrong |
| C05 | `Model::withMemoization` over a heap of parameters | invariant over histories of writes and evaluations; counterexample for parameters of reactants |
| C06 | heap of parameter cells, handles, copy/clone/set | invariant over histories |
| C07 | `makeunique` | induction; counterexample for words ending in the suffix |
| C08, C09 | `split`, `join`, `trim`, `StringList` tokenizer | round trips by induction |
| C10, C11 | recursive-descent formula and charge parsers | parser correctness against syntax trees by structural induction |
| C12 | `ReactionEquation` and its parser/printer | permutation invariance; printer counterexample |
| C13 | tables of aggregate states, suffix identification | complete table plus a theorem for all names |
| C14–C16 | unit tables, factors, dimensions, the unit parser | algebra over ℚ; structural induction |
| C17, C18 | interpolators with explicit out-of-range outcomes | algebra over an ordered field, index invariants |
| C19 | `inverseShermanMorrison` | matrices over a field, induction on the updated columns |
| C20 | `farey`, `rationalize` | loop invariants; counterexamples for optimality and for denominator zero |
| C21 | `cardano` over ℝ/ℂ | algebraic identities in each branch |
| C22 | mole fractions and Jacobians | `HasDerivAt` |
| C23, C24 | array (de)serialization with offsets | round trip by induction on the list of fields |
| C25 | `Database` | invariants over histories |
| C26 | YAML database parser on a document model | well-founded recursion on acyclic graphs; non-termination for cycles |
| C27–C29 | `PhaseList`, `ChemicalSystem` | index arithmetic by induction on phases; counterexample for renamed species |
| C30 | `SpeciesList` filters, `Phases::convert` | filter characterisations |
| C31 | `ChemicalState` setters, debug and release builds | invariant over histories; release counterexample |
| C32, C33 | `ChemicalProps(Phase)` | disjoint blocks; algebraic identities |
| C34 | `FormationReaction` | algebra; counterexample for the ignored product volume |
| C35–C37 | `EquilibriumSpecs`, `EquilibriumDims` | invariants over histories with throwing calls; counterexamples |
| C38 | `EquilibriumConditions` | refinement to a finite map; counterexample for `Eh` units |
| C39, C40 | `EquilibriumRestrictions`, bounds | refinement to last-call-wins; bounds |
| C41 | `EquilibriumSetup` matrices | linear algebra |
| C42 | `EquilibriumProps::update` | heap model; counterexample on the exceptional path |
| C43 | `EquilibriumHessian` | counterexamples; diagonal approximation |
| C44, C45 | `EquilibriumPredictor`, sensitivities | linear algebra |
| C56 | `EquilibriumSolver::solve` for an arbitrary optimiser | composition of C38, C40, C41; counterexample for the titrants reported |
| C46–C48, C57 | `CubicEOS::compute` | field identities, `HasDerivAt` along branches of roots; induction over histories; counterexamples |
| C58 | `PhaseIdentification.cpp` | refinement to stationary points and Gibbs energies |
| C49, C50 | `AqueousMixture`, `AqueousProps` | partitions, algebra; counterexamples |
| C51, C59 | Redlich–Kister and ideal activity models | `HasDerivAt` along paths; counterexamples |
| C60, C61 | HKF and Debye–Hückel aqueous models | `HasDerivAt` along dilution paths of ionic solutions, and along paths where one ion replaces another; exact defect of the Debye–Hückel water activity |
| C62, C63 | `chain`, Setschenow, Drummond, Rumpf, Duan–Sun | frame conditions by induction on the chain; invariant over process histories (static variables) |
| C52, C53 | reaction and standard thermodynamic models | `HasDerivAt`, field identities |
| C64–C66 | water: Helmholtz energy of Wagner–Pruss and of Haar–Gallagher–Kell, `waterThermoState` | a calculus of jets (value and derivatives) closed under the operations of the formulas; implicit function for the density; counterexamples |
| C67–C70 | water: low density limit, `waterDensity`, Johnson–Norton dielectric constant; HKF `g` function, Born coefficient, standard properties of solutes and solvent | limits; mean value theorem; consistency of states propagated from the fluid model through each function; counterexamples |
| C71–C73 | YAML encoders and decoders of standard and reaction models; numbers and pairs as text; encoding and decoding of databases | round trips by cases and induction; decimal rounding; counterexamples |
| C74 | `ThermoProps` and `ThermoPropsPhase`: construction, update, derived properties | invariant over histories of updates and parameter changes; counterexamples |
| C75 | `PhreeqcDatabase`: elements, species, phases, formation reactions, `load`; the contents of PHREEQC are data | invariant over the recursive insertion; rank function for cycles; counterexample for nested reactions |
| C76 | `PhreeqcThermo`: standard volumes, reaction models; the standard models of `PhreeqcDatabase` | defining relation of log K as a separate specification; induction over the built species; counterexample for nested reactions |
| C77 | `PhreeqcWater`: density, compressibility, dielectric constant, Born functions, Debye-Hückel parameters | derivatives; counterexample below saturation |
| C78 | `ActivityModelSpycherReed`: the whole lambda, with its tables | derivatives with respect to temperature, pressure and amounts; virial expansion written out as a separate specification |
| C79 | `ActivityModelSpycherPruessEnnis`: the choice of the volume, fugacity coefficients | C21 for the roots, monotonicity between roots for stability; counterexamples for water and the excess volume |
| C80 | `ActivityModelPitzerHMW`: parameter tables, the equations for cations, anions, neutral solutes and water, the lambda | the equations as the gradient of an excess Gibbs energy written as a separate specification; no such energy exists for mixed charges or triplets (counterexamples) |
| C81 | `SupcrtModels`, `SpeciesElectroStateHKF`, `SupcrtEngine` with its three remembered values | conversion of the parameters to SI as a specification, equality with the models of C53, C64, C70; derivatives with respect to pressure; invariant of the remembered values over all calls; counterexamples after failures |
| C82 | `SupcrtDatabase.cpp`: reading of XML entries, parameters, the database and the locale guard; the XML library and number reading are parameters | a relation `Describes` between entries and species written with paths, and induction over the entries; invariant of C25; programs of loadings and locale changes |
| C83 | `LU.cpp` and the algorithm of `Eigen::FullPivLU`, with its decision about the rank | loop invariant of the elimination, triangular systems by strong induction, invariant over histories; counterexamples |
| C84 | `Derivatives.cpp` | integrated bounds on the derivative (mean value theorem); counterexample at zero |
| C85 | `MineralMechanism.cpp`, `MineralCatalyst.cpp` | texts described by fields (C08) and units (C15), induction over the options; counterexamples |
| C86 | `NamingUtils.cpp`, with its two maps as state | induction over histories; ways of writing a species as an inductive predicate; counterexamples |
| C87 | `ChemicalState::Equilibrium` (its data, setters and getters), objects with owned data | refinement of a heap of owned cells to plain values; induction over setters; counterexamples |
| C88 | copies and assignments of `ChemicalState` and `PorousRockState`, over the state model of C31 | the same refinement; counterexample for porous rocks |
| C89 | `Outputter.cpp`, lines as lists of cells | lengths of cells for all options; counterexamples |
| C90 | `newton` of `Roots.hpp` over the reals | induction over iterations; mean value theorem; counterexample with arbitrary residual |
| C91 | `Params.cpp`, `Param.cpp`, records in shared cells | invariant of separation of a clone, by induction over programs |
| C92 | `ActivityModelCubicEOS.cpp`, with the registry of C54 and the equation of state of C46 | sums over fibres of a map of species; intermediate value theorem and limits; counterexamples |
| C93 | `Phreeqc.cpp` (initialisation) and `PhreeqcUtils.cpp`, over a model of the data of the PHREEQC engine | the formula matrix as sums over formulas; conservation from balanced formulas; counterexamples |
| C94 | `Phreeqc.cpp` (state and properties), with the numerical functions of PHREEQC as parameters | refinement of all histories to functions of the last state; counterexamples |
| C95 | `SupcrtblModels.cpp` | conversion of units; derivatives of real functions; reuse of C53; counterexamples |
| C96 | `Element.cpp`, `Species.cpp`, `Phase.cpp`, `Reaction.cpp`: heap of shared cells | refinement of all programs to plain values; invariants; constructors and methods case by case |
| C97 | `ThermoFunDatabase.cpp`, `ThermoFunEngine.cpp`; the ThermoFun library as parameters; uninitialised memory as a parameter | induction over substances with the invariant of C25; counterexamples |
| C98 | `ElementList.hpp`, `SpeciesList.hpp`, `PhaseList.hpp`, `ChemicalFormula.cpp`, `Algorithms.hpp`; predicates with outcomes | one induction for all searches and selections; permutations of lists without repetition; counterexamples |
| C99 | saturation functions of `WaterUtils.cpp` over the reals | equality with the published powers; sign of the derivative of polynomials in a root of the distance from the critical point |
| C100 | derivatives in `EquilibriumSetup.cpp` and `EquilibriumSolver.cpp`; numbers with derivatives, the optimiser as any list of requests | loop invariant of the seeded variables; exact derivative left in the state after a calculation; counterexample for the second calculation |
| C101 | tables, look-ups and setters of `ActivityModelDebyeHuckel.cpp`; tables, radii and interpolators of `ActivityModelHKF.cpp` | induction over maps with the theorem on equivalent formulas (C98), finite tables decided by the kernel, histories of names (C86), bounds of bilinear interpolation (C18); misprints as counterexamples |
| C102 | the classes of `Phases.hpp` and `Phases.cpp` as values with setters; a program of constructor, setter and add calls; conversion with activity models as parameters | invariant by induction over programs; conversion by the lemmas of C30; names with spaces as counterexamples |
| C103 | solver objects with the three places where options are kept; programs over lists of solvers and states; the optimiser a parameter that depends on its options | refinement of an abstract machine by induction over programs; invariant on the sizes of the records in states; counterexamples by evaluation |
| C104 | the names, formulas, elements, charges, states, model names and undefined parameters of all 7173 records as data, with the loader of C26; numerical values of the parameters are not in the data | kernel evaluation of checkers proved sound over the data, composed with the general theorems on the loader |
| C105 | the problem given to the optimiser, put together from the models of the activity models, chemical properties, gradient, objective and bounds; equilibrium is the first-order conditions with multipliers | tangent-plane inequality from log x ≤ x − 1, summed over the phases, with the variational inequality of the multipliers; intermediate value theorem for the counterexample |
| C106 | MathUtils.cpp with Eigen's column pivoting decomposition written out with remainders of columns; references to matrices as address, sizes and stride; the float conversion and one rounding as arbitrary functions | invariant: remainders are orthogonal to the chosen columns; dimension count for wide matrices |
| C107 | ChemicalProps.update and the problem of C105 | update commutes with multiplication, phase by phase; first-order conditions with the same multipliers |
| C108 | EquilibriumSpecs (C35), EquilibriumSetup (C55), ChemicalProps (C32), joined | the column of a titrant equals that of the species, the titrant has no bounds, so the residuals give the potential; counterexamples for an ideal solution of water and hydrogen ion |
| C109 | ChemicalProps (C32), EquilibriumSetup (C55), EquilibriumSpecs (C35), C108, joined | the added energies are in the row space of the matrix, so the multipliers absorb them; activities do not depend on standard energies; counterexample with two ions of iron at a given pE |
| C110 | EquilibriumSolver (C56), Restrictions (C39, C40), EquilibriumSetup (C55), C105, joined | the new bounds contain the state and the old multipliers still fit, because a bound that moved has moved to the amount in the state |
| C111 | ChemicalSystem (C27-C29), ChemicalProps (C32), C105 | the conditions of equilibrium are sums and statements over all unknowns, each with its column, bounds and component of the gradient; an update treats each phase on its own |
| C112 | Activity models (C59-C63), ChemicalProps (C32), C105, C111 | a model is equivariant if permuting its arguments permutes its values; chains of equivariant models are equivariant, and each model is a sum over species or a look-up by formula |
| C113 | ChemicalProps (C32), C105, C109 | monotonicity of the gradient under Gibbs' criterion, for two amounts of elements; the minimum property at two temperatures or pressures, and the mean value theorem |
| C114 | IdealEquilibrium, EquilibriumSetup, Repeat | Brouwer's fixed-point theorem (proved in Lemmas/Brouwer.lean) gives a solution of the variational inequality, Farkas' lemma the multipliers |
| C115 | IdealEquilibrium, PhaseOrder | The conditions of equilibrium as a list of conditions for each unknown with common multipliers; appending lists of phases, and the multipliers through reactions |
| C116 | IdealEquilibrium, ChemicalSystem | Combinations of balances; the multipliers transform with the transposed combination |
| C117 | EquilibriumDerivatives, EquilibriumSolver | The optimality conditions with the unknowns kept at bounds form a system whose derivative is invertible; the implicit function theorem; Cauchy-Schwarz for ideal phases |
| C118 | PhreeqcImport | loops as updates of records; characterisation of the loops, invariants over sequences of calls; the table against the registry by evaluation |
| C119 | DatabaseObjects | programs as sequences of operations on variables, with the instances of PHREEQC and who holds them; invariant by induction over the program |
| C120 | Comparisons | operators as functions, sorting as a relation; trichotomy and transitivity of the order of strings; invariant of the removal of adjacent items; formulas read from texts by induction on the parser |
| C121 | Scaling, PhaseOrder, Subsystems | conditions of equilibrium by unknowns (C115), properties of a multiple of a phase (C107), uniqueness (C105) and order of phases (C111) |
| C122 | ValueObjects, Lists, Param, AggregateState | YAML nodes with the texts of numbers as a parameter; encoders and decoders; a relation between documents and elements |
| C123 | constants of all modules, Registries, Chem | evaluation of constants, a bound for all pressures, and the table of elements by evaluation |
| C124 | updates of ThermoProps with numbers that carry a derivative, comparison of numbers as parameter | invariant over histories of calls |
| C54 | registries | refinement to a map over histories |
| C55 | objective and gradient of `EquilibriumSetup` | duality of matrix and balanced reactions, `HasDerivAt`; counterexample for titrants |

## 5. Not modelled

The optimisation solver (Optima), automatic differentiation, floating point, YAML text syntax, file access,
the engines of the PHREEQC, ThermoFun and GEMS back ends, plotting and output,
and files whose whole body is commented out (`TransportSolver`, `EquilibriumReactions`, `EquilibriumUtils`,
`SmartEquilibriumSolver`, `EquilibriumProblem`, `ReactionSystem`, `ChemicalQuantity`, `ChemicalOutput`,
`ChemicalPlot`, `ChemicalField`, `ChemicalSolver`, `MineralReaction`, `PhreeqcEditor`, `Supcrt/Supcrt.cpp`,
`Interfaces/Gems`, `Interfaces/Interface`, `ActivityModelVanLaar`, `Interpreter`).
