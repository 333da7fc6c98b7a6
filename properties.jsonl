{"id": "C01", "title": "Last-call memoization is invisible for functions that do not throw", "statement": "A function wrapped with memoizeLast returns, at every call, exactly what the wrapped function returns for those arguments, whatever calls were made before and however memoization was switched on and off in between.", "quantifier": "all functions that do not throw, all argument/result types with decidable equality, all finite histories of enable/disable/call", "why_tests_cant": "The wrapper carries hidden state (cached arguments, result, first-call flag) driven by a global switch; only an invariant over all histories excludes a stale hit.", "anchors": ["Reaktoro/Common/Memoization.hpp: memoizeLast", "Reaktoro/Common/Memoization.cpp: Memoization::enable/disable"]}
{"id": "C02", "title": "Last-call memoization is invisible even when the wrapped function throws", "statement": "If the wrapped function throws for some arguments, the memoized function throws for them too, at every call, and never returns a value instead.", "quantifier": "all partial functions (some arguments throw), all histories of enable/disable/call", "why_tests_cant": "The failure needs a throwing call followed by a repeat of the same arguments; the value returned then depends on the whole earlier history.", "anchors": ["Reaktoro/Common/Memoization.hpp: memoizeLast"]}
{"id": "C03", "title": "Full memoization is invisible", "statement": "A function wrapped with memoize returns, or throws, at every call exactly what the wrapped function does, for every history of calls (throwing or not) and of enabling and disabling memoization, and calls the wrapped function at most once per argument on which it returned while enabled.", "quantifier": "all functions (throwing or not), all histories of enable/disable/call", "why_tests_cant": "The cache grows without bound with the history; correctness is an invariant over every reachable cache.", "anchors": ["Reaktoro/Common/Memoization.hpp: memoize"]}
{"id": "C04", "title": "Reference-returning memoization is invisible", "statement": "A function wrapped with memoizeLastUsingRef leaves in its output argument, at every call, exactly what the wrapped function would, for every history of calls and of enabling and disabling memoization.", "quantifier": "all functions writing an output argument that they fully overwrite, all histories of enable/disable/call", "why_tests_cant": "The defect needs the first call to happen while memoization is disabled and a later call whose arguments equal default-constructed ones.", "anchors": ["Reaktoro/Common/Memoization.hpp: memoizeLastUsingRef"]}
{"id": "C05", "title": "A memoized model always reflects the current values of its declared parameters", "statement": "After any sequence of parameter assignments and model evaluations, evaluating a memoized Model returns the value of its formula at the given arguments with the parameters' current values.", "quantifier": "all model formulas that depend only on arguments and declared parameters, all interleavings of parameter writes and evaluations", "why_tests_cant": "Parameters are shared mutable cells changed from outside the model; a stale value needs a particular interleaving of writes and equal arguments.", "anchors": ["Reaktoro/Core/Model.hpp: withMemoization, operator()", "Reaktoro/Core/Params.hpp: SameValue<Params>, AssignValue<Params>", "Reaktoro/Core/FormationReaction.cpp: createStandardThermoModel"]}
{"id": "C06", "title": "Copies of a parameter share its value and clones do not", "statement": "Assigning a value through one copy of a Param is seen through every copy of it and through no other parameter; a clone starts with the same value and is never affected by later writes to the original, nor the original by writes to the clone.", "quantifier": "all histories of creating, copying, cloning and assigning parameters", "why_tests_cant": "Aliasing bugs only show up for specific histories of copies; the claim is about every history.", "anchors": ["Reaktoro/Core/Param.hpp, Param.cpp: Param, clone, value", "Reaktoro/Core/Params.cpp: clone"]}
{"id": "C07", "title": "makeunique yields pairwise distinct words", "statement": "makeunique(words, suffix) returns as many words as given, keeps the i-th word up to appended suffixes, and its result contains no duplicates.", "quantifier": "all lists of words, all suffixes", "why_tests_cant": "Collisions depend on words that already end with the suffix; lists of any length must be covered.", "anchors": ["Reaktoro/Common/StringUtils.hpp: makeunique"]}
{"id": "C08", "title": "split and join are inverse on clean words", "statement": "Splitting the concatenation of non-empty words free of separator characters, joined by a separator, returns these words; conversely every word returned by split is non-empty and free of separators and their concatenation is the input without the separators.", "quantifier": "all strings, all separator sets", "why_tests_cant": "Holds for strings of any length and any placement of repeated separators.", "anchors": ["Reaktoro/Common/StringUtils.hpp: split, join"]}
{"id": "C09", "title": "A string list keeps bracketed text together and loses nothing", "statement": "Converting a string to a list of strings with a separator cuts exactly at the separators that are not inside brackets: joining the tokens with the separator gives back the trimmed input, and no token contains a separator outside brackets.", "quantifier": "all strings with balanced parentheses, all separator characters", "why_tests_cant": "Bracket nesting depth and string length are unbounded.", "anchors": ["Reaktoro/Common/StringList.cpp: convertStringToStringsHelper, findMatchingBracket"]}
{"id": "C10", "title": "Parsing a chemical formula recovers its composition", "statement": "For every formula written from element symbols, numeric coefficients and (nested) parenthesised groups with multipliers, parseChemicalFormula returns, for every element, the total number of atoms obtained by expanding the groups.", "quantifier": "all formula syntax trees (any nesting depth and length)", "why_tests_cant": "The grammar is recursive: nesting depth, repeated elements and multipliers are unbounded.", "anchors": ["Reaktoro/Common/ParseUtils.cpp: parseChemicalFormula, parseElementAtom, parseNumAtoms, findMatchedParenthesis"]}
{"id": "C11", "title": "Parsing the electric charge of a formula recovers the charge", "statement": "A formula ending with n plus signs, with '+n', or with '[n+]' has charge n; with minus signs, charge -n; a formula with no sign has charge 0.", "quantifier": "all formula bodies and all charge magnitudes, in the three notations", "why_tests_cant": "All bodies and magnitudes; three parsers run in sequence and their combination must agree.", "anchors": ["Reaktoro/Common/ParseUtils.cpp: parseElectricCharge*, "]}
{"id": "C12", "title": "Reaction equations compare by content and print back", "statement": "Two reaction equations with the same species and coefficients are equal in whatever order they are given; the coefficient of a species is that given for it and 0 otherwise; printing an equation and parsing it again gives an equal equation.", "quantifier": "all reaction equations", "why_tests_cant": "All orders and all lengths; printing depends on signs and number of terms on both sides.", "anchors": ["Reaktoro/Core/ReactionEquation.cpp", "Reaktoro/Common/ParseUtils.cpp: parseReactionEquation"]}
{"id": "C13", "title": "Aggregate states survive printing and parsing", "statement": "Parsing the printed form of an aggregate state returns that state, for every state; names with a known suffix are identified as the state the suffix denotes, whatever the name.", "quantifier": "all aggregate states; all species names", "why_tests_cant": "The second half ranges over all names; the first over the whole enumeration.", "anchors": ["Reaktoro/Core/AggregateState.cpp"]}
{"id": "C14", "title": "Temperature conversion is consistent", "statement": "Converting a temperature between any two of the temperature units and back returns the original value, conversion through an intermediate unit equals direct conversion, and conversions preserve order.", "quantifier": "all temperatures (exact arithmetic), all pairs and triples of temperature units", "why_tests_cant": "All values; the recursive unit table has chains of different lengths.", "anchors": ["Reaktoro/Common/Units.cpp: temperatureUnitsMap, toKelvin, fromKelvin, convertTemperature"]}
{"id": "C15", "title": "Unit conversion factors compose and reject incompatible units", "statement": "convert(value, a, b) succeeds exactly when a and b have the same dimension, convert from a to a is the identity, converting a to b to a returns the value and a to b to c equals a to c.", "quantifier": "all values, all unit expressions built from the unit table with products, quotients and powers", "why_tests_cant": "Unit expressions are unbounded trees.", "anchors": ["Reaktoro/Common/Units.cpp: factor, dimension, slope, intercept, convertible"]}
{"id": "C16", "title": "Parsing a unit string gives the unit it denotes", "statement": "For every unit expression built from symbols, products, quotients, integer powers and parentheses, parsing its text gives a unit whose factor and dimension are the product of the factors and dimensions of its parts raised to their powers.", "quantifier": "all unit expressions (any size and nesting)", "why_tests_cant": "Recursive grammar with operator precedence and right-to-left splitting.", "anchors": ["Reaktoro/Common/Units.cpp: parseUnit, findMatchedParenthesisFromRight"]}
{"id": "C17", "title": "Lagrange interpolation passes through the data", "statement": "The interpolated value at each node is the given ordinate, the interpolation is exact for data from polynomials up to the used order, and evaluation never reads outside the tables.", "quantifier": "all numbers of nodes, all strictly increasing nodes, all ordinates, all orders, all abscissae", "why_tests_cant": "All table sizes and abscissae, including end intervals and outside the range.", "anchors": ["Reaktoro/Math/LagrangeInterpolator.cpp"]}
{"id": "C18", "title": "Bilinear interpolation reproduces the table and stays within it", "statement": "The bilinear interpolator returns the tabulated value at every grid point, a value between the minimum and maximum of the surrounding four entries in every cell, equals the bilinear function exactly for bilinear data, rejects arguments outside the grid with an exception, and never reads outside its tables. It is continuous over the whole grid, differs from a tabulated function by no more than the function changes within a cell, and for several functions at once is the interpolation of each.", "quantifier": "all grids with at least two points per axis, all data, all arguments", "why_tests_cant": "All grids and all arguments; index search and clamping interact.", "anchors": ["Reaktoro/Math/BilinearInterpolator.cpp", "Reaktoro/Common/InterpolationUtils.cpp: interpolate"]}
{"id": "C19", "title": "Inverse rank-one update", "statement": "inverseShermanMorrison(inv(A), D) with D the diagonal increment returns the inverse of A + diag(D).", "quantifier": "all dimensions, all invertible matrices over a field, all increments for which the intermediate denominators do not vanish", "why_tests_cant": "Universal algebraic identity over all matrices of all sizes.", "anchors": ["Reaktoro/Math/MathUtils.cpp: inverseShermanMorrison"]}
{"id": "C20", "title": "Rational approximation respects the denominator bound", "statement": "farey(x, maxden) and rationalize(x, maxden) return a fraction with positive denominator not larger than maxden, and the fraction is the closest one to x with such a denominator.", "quantifier": "all numbers x, all denominator bounds", "why_tests_cant": "The mediant search runs for an unbounded number of steps.", "anchors": ["Reaktoro/Math/MathUtils.cpp: farey, rationalize"]}
{"id": "C21", "title": "Cardano's method returns the roots of the cubic", "statement": "The three numbers returned by cardano(b, c, d) are the roots of x^3 + b x^2 + c x + d with multiplicity: the polynomial factors as the product of (x - root_i).", "quantifier": "all real coefficients", "why_tests_cant": "Case split on the discriminant over a continuum of coefficients.", "anchors": ["Reaktoro/Math/Roots.hpp: cardano, realRoots"]}
{"id": "C22", "title": "Mole fractions and their Jacobian", "statement": "Mole fractions of non-zero total amounts sum to one, are non-negative for non-negative amounts, do not change when all amounts are scaled, and the returned Jacobians are the derivatives of the mole fractions and of their logarithms.", "quantifier": "all numbers of species, all amounts with non-zero total", "why_tests_cant": "All dimensions and all real amounts; derivative identity.", "anchors": ["Reaktoro/Common/MoleFractionUtils.hpp"]}
{"id": "C23", "title": "Array serialization round trip", "statement": "Serializing any list of scalars and arrays into one array and deserializing into objects of the same shapes returns the same objects; the array has exactly the total length; deserialization of an array of the wrong length never reads or writes outside it.", "quantifier": "all lists of scalars and arrays of any length", "why_tests_cant": "All shapes and lengths; offset bookkeeping is cumulative.", "anchors": ["Reaktoro/Common/ArraySerialization.hpp", "Reaktoro/Common/ArrayStream.hpp"]}
{"id": "C24", "title": "Chemical properties survive conversion to and from an array", "statement": "Storing a ChemicalProps object in an array and updating another ChemicalProps object of the same system from this array gives an object with identical properties.", "quantifier": "all systems (numbers of phases and species), all property values", "why_tests_cant": "Twenty-two fields of two different lengths must be written and read in the same order for all sizes.", "anchors": ["Reaktoro/Core/ChemicalProps.cpp: serialize, deserialize, update(ArrayStream)"]}
{"id": "C25", "title": "A database has unique species names, unique elements and complete indices", "statement": "After any sequence of addSpecies/addElement/clear, species names are pairwise distinct, element symbols are pairwise distinct, every element of every species is in the element list, speciesWithAggregateState(s) lists exactly the species with state s in insertion order, and no species is lost.", "quantifier": "all histories of additions and clears", "why_tests_cant": "Invariant over histories; renaming of duplicates interacts with grouping by aggregate state.", "anchors": ["Reaktoro/Core/Database.cpp"]}
{"id": "C26", "title": "Loading a YAML database orders species after their reactants", "statement": "Loading a document either reports an error or yields every species of the document exactly once, each after all reactants of its formation reaction, with elements and species in the document resolved by first occurrence; loading terminates whenever the reactant relation is acyclic, and fails with an error otherwise.", "quantifier": "all documents (any number of species, any reactant graph)", "why_tests_cant": "Recursion follows an arbitrary user-supplied graph of any depth.", "anchors": ["Reaktoro/Core/Support/DatabaseParserYAML.cpp"]}
{"id": "C27", "title": "Species indices and phase indices agree", "statement": "In every chemical system, the global index of the j-th species of phase p is numSpeciesUntilPhase(p)+j; every species index belongs to exactly one phase, returned by findWithSpecies; indices out of range are reported as the number of phases.", "quantifier": "all systems (any number of phases, any number of species per phase)", "why_tests_cant": "All phase partitions, including empty phases and boundary indices.", "anchors": ["Reaktoro/Core/PhaseList.hpp: findWithSpecies, numSpeciesUntilPhase", "Reaktoro/Core/ChemicalSystem.cpp"]}
{"id": "C28", "title": "Names in a chemical system are unique and agree everywhere", "statement": "In every chemical system the phase names are pairwise distinct, the species names are pairwise distinct, and the species reached through a phase is the same (same name) as the species reached through the global index.", "quantifier": "all lists of phases", "why_tests_cant": "Duplicate names arise only for particular combinations of phases.", "anchors": ["Reaktoro/Core/ChemicalSystem.cpp: fixDuplicatePhaseNames, fixDuplicateSpeciesNames, Impl::Impl"]}
{"id": "C29", "title": "The formula matrix gives element and charge totals", "statement": "For every composition n, formulaMatrix()*n is, for each element, the sum of its coefficient in each species times the amount, followed by the total charge; the elements are exactly those present in some species, without repetition and in non-decreasing molar mass.", "quantifier": "all systems, all amounts", "why_tests_cant": "All systems and amounts.", "anchors": ["Reaktoro/Core/ChemicalSystem.cpp: detail::formulaMatrix, collectElements", "Reaktoro/Core/ChemicalState.cpp: elementAmounts"]}
{"id": "C30", "title": "Phase definitions select exactly the requested species", "statement": "Converting phase definitions with a database yields, for a definition by names, exactly these species in the given order (or an error if one is missing); by elements or without restriction, exactly the species of the phase's aggregate state whose elements are all allowed and that carry none of the excluded tags, in database order.", "quantifier": "all databases, all lists of phase definitions", "why_tests_cant": "All databases and all combinations of definitions, generators and exclusions.", "anchors": ["Reaktoro/Core/Phases.cpp: GenericPhase::convert, GenericPhasesGenerator::convert, Phases::convert", "Reaktoro/Core/SpeciesList.hpp: withNames, withElements, withoutTags"]}
{"id": "C31", "title": "A chemical state never holds negative amounts, temperatures or pressures", "statement": "After any sequence of setters that return normally, temperature and pressure are positive, species amounts are non-negative, unaffected species keep their amounts, and a setter that throws leaves the state as it was.", "quantifier": "all histories of setter calls with arbitrary values, in debug and release builds", "why_tests_cant": "Invariant over histories; array overloads are only checked by assertions.", "anchors": ["Reaktoro/Core/ChemicalState.cpp: setTemperature, setPressure, setSpeciesAmounts, setSpeciesAmount, setSpeciesMass"]}
{"id": "C32", "title": "Updating chemical properties writes each phase's block and nothing else", "statement": "After ChemicalProps::update(T, P, n), the properties stored for each species and each phase are those computed by its own phase from its own segment of n at T and P; blocks of different phases do not overlap and cover everything.", "quantifier": "all systems, all T, P, n", "why_tests_cant": "All phase partitions; overlapping or shifted segments depend on sizes.", "anchors": ["Reaktoro/Core/ChemicalProps.cpp: update, phaseProps", "Reaktoro/Core/ChemicalPropsPhase.hpp: _update"]}
{"id": "C33", "title": "Thermodynamic identities hold for all reported properties", "statement": "For each species, phase and the whole system: G = H - T S, U = H - P V, A = G - P V; extensive properties are amounts times molar ones; system totals are sums over phases; for the molar Gibbs energy G = sum of x_i mu_i when the excess Gibbs energy is consistent with activities.", "quantifier": "all property values with T > 0, all systems", "why_tests_cant": "Identities over all real values and sizes.", "anchors": ["Reaktoro/Core/ChemicalPropsPhase.hpp", "Reaktoro/Core/ChemicalProps.cpp", "Reaktoro/Core/ThermoProps.cpp"]}
{"id": "C34", "title": "Formation reactions give consistent standard properties", "statement": "A species defined by a formation reaction has standard Gibbs energy and enthalpy equal to the reaction's value plus the stoichiometric sum of those of its reactants, the volume change passed to the reaction model is the product volume minus that of the reactants, and the declared constant product volume is the species' standard volume.", "quantifier": "all reactants lists, all models, all T, P", "why_tests_cant": "All reactants and models (functions).", "anchors": ["Reaktoro/Core/FormationReaction.cpp: createStandardThermoModel, withProductStandardVolume, withEquilibriumConstant"]}
{"id": "C35", "title": "Equilibrium specifications stay consistent under every sequence of calls", "statement": "After any sequence of specification calls, input names are pairwise distinct, explicit and implicit titrants are pairwise non-equivalent, there is one chemical-potential constraint per implicit titrant, and the lists of names and numbers reported agree with each other.", "quantifier": "all histories of specification calls, including calls that throw", "why_tests_cant": "Invariant over all call histories.", "anchors": ["Reaktoro/Equilibrium/EquilibriumSpecs.cpp"]}
{"id": "C36", "title": "A rejected specification call leaves the specification unchanged", "statement": "If a specification call throws, the specification is as it was before the call.", "quantifier": "all histories, all calls", "why_tests_cant": "Needs the failing call at every reachable state.", "anchors": ["Reaktoro/Equilibrium/EquilibriumSpecs.cpp: pE, Eh, pH, chemicalPotential, addConstraint, addInput"]}
{"id": "C37", "title": "A well-posed equilibrium problem is never indexed out of range", "statement": "Whenever an equilibrium setup is accepted, the number of unknown control variables equals the number of constraints, the i-th equation constraint exists for each p variable, and the i-th chemical-potential constraint exists for each q variable; a setup with a different number is rejected.", "quantifier": "all reachable specifications", "why_tests_cant": "Counts depend on arbitrary call histories.", "anchors": ["Reaktoro/Equilibrium/EquilibriumDims.cpp", "Reaktoro/Equilibrium/EquilibriumSetup.cpp: evalEquationConstraints, evalObjectiveGradient"]}
{"id": "C38", "title": "Setting a condition changes exactly that input", "statement": "Every setter of equilibrium conditions throws if the corresponding input is not part of the specification; otherwise it sets that input to the value converted to SI (or to the unit the constraint expects) and leaves every other input unchanged; the last value set wins.", "quantifier": "all specifications, all histories of setter calls, all values and units", "why_tests_cant": "All histories and all units.", "anchors": ["Reaktoro/Equilibrium/EquilibriumConditions.cpp"]}
{"id": "C39", "title": "The last restriction on a species wins", "statement": "After any sequence of restriction calls, the restriction on increase (decrease) of each species is that of the last call concerning its increase (decrease), or none; a species is never both forbidden to increase and given an upper bound.", "quantifier": "all histories of restriction calls", "why_tests_cant": "Refinement over all histories of set/map updates.", "anchors": ["Reaktoro/Equilibrium/EquilibriumRestrictions.cpp"]}
{"id": "C40", "title": "Bounds passed to the optimizer implement the restrictions", "statement": "A species that cannot increase has upper bound its initial amount, one that cannot decrease has lower bound its initial amount, given bounds are passed on, all others are free above the positive floor epsilon; the initial amounts always lie within the bounds and lower bounds never exceed upper bounds.", "quantifier": "all restriction histories, all initial amounts, all epsilon > 0", "why_tests_cant": "All combinations of restrictions and amounts, including amounts below epsilon.", "anchors": ["Reaktoro/Equilibrium/EquilibriumSetup.cpp: assembleLowerBoundsVector, assembleUpperBoundsVector"]}
{"id": "C41", "title": "Every feasible point of the equilibrium problem conserves elements and charge", "statement": "Any point satisfying the linear constraints handed to the optimizer has, in species and titrants together, exactly the initial amount of every element and the initial charge (a titrant with a negative reported amount has entered the system); explicit and implicit titrants contribute their own formula, and unknown temperature and pressure contribute nothing; titrants with elements that are not in the system are rejected.", "quantifier": "all systems, specifications, and all feasible points", "why_tests_cant": "Statement over all real vectors satisfying the constraints.", "anchors": ["Reaktoro/Equilibrium/EquilibriumSetup.cpp: assembleFormulaVector, assembleMatrixAex, assembleMatrixAep", "Reaktoro/Equilibrium/EquilibriumSolver.cpp: updateOptProblem"]}
{"id": "C42", "title": "Evaluating equilibrium properties leaves shared parameters unchanged", "statement": "EquilibriumProps::update evaluates the chemical properties with the input values of the parameters and leaves every shared model parameter, on return or on exception, with the value it had before.", "quantifier": "all parameter lists, all input values, all outcomes of the evaluation", "why_tests_cant": "The exceptional path at every parameter state.", "anchors": ["Reaktoro/Equilibrium/EquilibriumProps.cpp: update"]}
{"id": "C43", "title": "The Hessian helpers evaluate at the given properties", "statement": "EquilibriumHessian::exact, partiallyExact, approx and diagonalApprox return the (approximate) derivatives of the chemical potentials at the properties given; for an ideal system the approximation equals RT times the Jacobian of ln x in each phase block and zero elsewhere.", "quantifier": "all systems, all properties", "why_tests_cant": "All systems and amounts.", "anchors": ["Reaktoro/Equilibrium/EquilibriumHessian.cpp"]}
{"id": "C44", "title": "The equilibrium predictor is exact at, and first order around, the reference state", "statement": "With the inputs and component amounts of the reference state the predictor returns the reference state; predictions are affine in inputs and component amounts with the given sensitivities as slopes; when the sensitivities conserve elements, predicted states have exactly the requested component amounts; temperature and pressure are taken from inputs or control variables consistently with the specification.", "quantifier": "all reference states, sensitivities and conditions; all reachable specifications", "why_tests_cant": "All real vectors and all specifications.", "anchors": ["Reaktoro/Equilibrium/EquilibriumPredictor.cpp", "Reaktoro/Equilibrium/EquilibriumProps.cpp: createTemperatureGetterFn, createPressureGetterFn"]}
{"id": "C45", "title": "Sensitivities are propagated by the chain rule and stored where they are read", "statement": "The sensitivity of each property reported after a solve is the chain rule of the property's Jacobian with the sensitivities of amounts and control variables; getters by input name return the column of that input and by unknown names are rejected.", "quantifier": "all dimensions, all Jacobians, all input names", "why_tests_cant": "All dimensions and names.", "anchors": ["Reaktoro/Equilibrium/EquilibriumSolver.cpp: updateEquilibriumSensitivity", "Reaktoro/Equilibrium/EquilibriumSensitivity.cpp"]}
{"id": "C46", "title": "The compressibility factor solves the equation of state and its derivatives are right", "statement": "Z is a root of the code's cubic polynomial exactly when pressure, temperature and volume V = Z R T / P satisfy the cubic equation of state; the T and P derivatives used for Z, the coefficients and the mixture parameters are the derivatives of those quantities.", "quantifier": "all states with non-zero denominators, all EOS constants", "why_tests_cant": "Continuum of states; algebraic and differential identity.", "anchors": ["Reaktoro/Thermodynamics/Fluids/CubicEOS.cpp: compute"]}
{"id": "C47", "title": "Fugacity coefficients are consistent with the residual Gibbs energy", "statement": "For every mixture, the mole-fraction-weighted sum of ln fugacity coefficients is the residual Gibbs energy over RT, and each coefficient is the textbook partial molar residual property.", "quantifier": "all mixtures with non-zero denominators", "why_tests_cant": "All sizes and all real states.", "anchors": ["Reaktoro/Thermodynamics/Fluids/CubicEOS.cpp: compute"]}
{"id": "C48", "title": "The residual volume does not depend on earlier evaluations", "statement": "The residual volume (and its derivatives) reported by a cubic equation of state is V - RT/P at the given state, whatever states were evaluated before with the same model object.", "quantifier": "all histories of evaluations", "why_tests_cant": "Hidden state in the output object across calls.", "anchors": ["Reaktoro/Thermodynamics/Fluids/CubicEOS.cpp: compute (Vres)", "Reaktoro/Thermodynamics/Fluids/ActivityModelCubicEOS.cpp"]}
{"id": "C49", "title": "Aqueous mixtures partition species and compute molality and ionic strength", "statement": "Water, neutral solutes, cations and anions partition the species of an aqueous mixture; molality times the mass of water equals amount; ionic strength is half the charge-squared weighted sum of molalities, is non-negative and vanishes without ions; stoichiometric molalities conserve each ion.", "quantifier": "all aqueous species lists containing water, all mole fractions", "why_tests_cant": "All lists and values.", "anchors": ["Reaktoro/Thermodynamics/Aqueous/AqueousMixture.cpp"]}
{"id": "C50", "title": "Aqueous properties report the state they were updated with", "statement": "After every update, pH is minus the decimal logarithm of the activity of H+, ionic strengths are those of the current composition, and molalities are amounts per kilogram of water.", "quantifier": "all histories of updates", "why_tests_cant": "Derived state must be refreshed at every update.", "anchors": ["Reaktoro/Thermodynamics/Aqueous/AqueousProps.cpp"]}
{"id": "C51", "title": "Solid-solution activities satisfy Gibbs-Duhem", "statement": "In the Redlich-Kister model the mole-fraction-weighted sum of ln activity coefficients equals the excess Gibbs energy over RT, the Gibbs-Duhem relation holds, and pure components have unit activity coefficient.", "quantifier": "all parameters, all compositions", "why_tests_cant": "Continuum of compositions and parameters.", "anchors": ["Reaktoro/Thermodynamics/Solids/ActivityModelRedlichKister.cpp", "Reaktoro/Thermodynamics/Ideal/*.cpp"]}
{"id": "C52", "title": "Reaction models satisfy the Gibbs-Helmholtz equation", "statement": "For each reaction thermodynamic model (constant lgK, van't Hoff, PHREEQC and GEMS lgK, pressure correction), the enthalpy reported is -T^2 times the temperature derivative of dG0/T at constant pressure.", "quantifier": "all T > 0, P, volumes and parameters", "why_tests_cant": "Differential identity over a continuum.", "anchors": ["Reaktoro/Models/ReactionThermoModel*.cpp"]}
{"id": "C53", "title": "Standard models satisfy the thermodynamic derivatives", "statement": "For the Maier-Kelley, Holland-Powell and mineral HKF models, the heat capacity is the temperature derivative of the enthalpy at the reference pressure, the volume is the pressure derivative of the Gibbs energy, and G = H - T S at the reference state implies it everywhere; Gibbs energy is continuous across phase transitions; and the heat capacities at constant pressure and at constant volume satisfy the relation between them.", "quantifier": "all T > 0, P and parameters", "why_tests_cant": "Differential identities over a continuum and across transitions.", "anchors": ["Reaktoro/Models/StandardThermoModelMaierKelley.cpp", "Reaktoro/Models/StandardThermoModelHollandPowell.cpp", "Reaktoro/Models/StandardThermoModelMineralHKF.cpp"]}
{"id": "C54", "title": "Substance registries resolve every name to the last registered data", "statement": "After any sequence of append/overwrite calls, each name resolves to the data of the last successful registration of a substance with that name; a rejected append changes nothing; dissociation reactions are found by formula equivalence with the last registered ions.", "quantifier": "all histories of registry calls", "why_tests_cant": "Global mutable registries; invariant over histories.", "anchors": ["Reaktoro/Singletons/CriticalProps.cpp", "Reaktoro/Singletons/DissociationReactions.cpp"]}
{"id": "C55", "title": "Stationary points satisfy mass action and imposed chemical potentials", "statement": "At every point where the gradient handed to the optimizer satisfies the optimality conditions, each reaction among species away from their bounds that conserves elements and charge has zero affinity up to the logarithm barrier, imposed chemical potentials of titrants included; the gradient is the derivative of the objective value handed over with it.", "quantifier": "all systems, specifications, amounts, chemical potentials that satisfy Gibbs-Duhem, and reactions", "why_tests_cant": "A statement about all reactions and a continuum of states.", "anchors": ["Reaktoro/Equilibrium/EquilibriumSetup.cpp: evalObjectiveValue, evalObjectiveGradX, assembleMatrixAex"]}
{"id": "C56", "title": "An equilibrium calculation returns a state that conserves matter and honours conditions and restrictions", "statement": "Whatever the optimizer does, if a calculation returns and the final point satisfies the linear constraints handed to the optimizer, then the resulting state has the element and charge amounts prescribed by the conditions (by the initial state when solving with a state only); if the point is within the bounds handed over, every species obeys the last restriction declared for it; temperature and pressure that are inputs have the prescribed values; states without any amounts and conditions without initial amounts are rejected without change; the amounts of titrants reported by the state are those of the titrants.", "quantifier": "all optimizers, systems, specifications, conditions, restrictions and states", "why_tests_cant": "The optimizer is a black box and the claim is about every calculation.", "anchors": ["Reaktoro/Equilibrium/EquilibriumSolver.cpp: solve, updateOptProblem, updateOptState, updateChemicalState", "Reaktoro/Core/ChemicalState.cpp: ChemicalState::Equilibrium"]}
{"id": "C57", "title": "Residual properties of cubic equations of state are thermodynamically consistent", "statement": "Along every continuous branch of simple roots, the residual enthalpy is minus T^2 times the temperature derivative of the residual Gibbs energy over T, the residual heat capacity is the temperature derivative of the residual enthalpy, the pressure derivative of the residual Gibbs energy is V - RT/P, and the heat capacity at constant volume follows from the derivatives of the volume.", "quantifier": "all equations of state, mixtures, temperatures, pressures and branches of roots", "why_tests_cant": "Differential identities over a continuum of states and along implicitly defined branches.", "anchors": ["Reaktoro/Thermodynamics/Fluids/CubicEOS.cpp: compute"]}
{"id": "C58", "title": "Phase identification picks the stable phase", "statement": "The pressures compared when there is one root are those of the stationary points of the isotherm above the co-volume; with three roots a vapor is identified exactly when its residual Gibbs energy is less than the liquid's; a vapor and a liquid model with the same data at the same state are never both rejected, and with the Gibbs energy method never both accepted.", "quantifier": "all equations of state, mixtures, states and solvers of the quartic equation that find its real roots", "why_tests_cant": "Continuum of states; statement about pairs of models.", "anchors": ["Reaktoro/Thermodynamics/Fluids/PhaseIdentification.cpp", "Reaktoro/Thermodynamics/Fluids/CubicEOS.cpp: compute"]}
{"id": "C59", "title": "Ideal activity models satisfy Gibbs-Duhem and reset all excess properties", "statement": "Evaluating an ideal model (solution, gas, aqueous) makes every excess property and ln activity coefficient zero whatever was there before, and along every path of compositions the changes of the ln activities weighted by the amounts sum to zero.", "quantifier": "all phases, temperatures, pressures, compositions, paths and previous contents", "why_tests_cant": "Differential identity over a continuum of compositions and all previous contents of the memory.", "anchors": ["Reaktoro/Thermodynamics/Ideal/ActivityModelIdealSolution.cpp", "Reaktoro/Thermodynamics/Ideal/ActivityModelIdealGas.cpp", "Reaktoro/Thermodynamics/Ideal/ActivityModelIdealAqueous.cpp"]}
{"id": "C60", "title": "The HKF water activity is consistent with the solute activities", "statement": "Along every path on which the solutes of an electrically neutral aqueous phase are diluted or concentrated together, the changes of the ln activities of water and solutes from the HKF model, weighted by the amounts, sum to zero (Gibbs-Duhem).", "quantifier": "all aqueous phases, parameters, temperatures, pressures, compositions and dilution factors", "why_tests_cant": "Differential identity over a continuum of compositions.", "anchors": ["Reaktoro/Thermodynamics/Aqueous/ActivityModelHKF.cpp: activityPropsFnHKF"]}
{"id": "C61", "title": "The Debye-Huckel water activity is consistent with the solute activities", "statement": "In the Debye-Huckel model, ion activity coefficients follow the extended Debye-Huckel equation at the ionic strength of the solution and tend to the limiting law; the activity of water is that obtained from the ions by Gibbs-Duhem, as the documentation claims.", "quantifier": "all aqueous phases, parameter sets, temperatures, pressures, compositions and dilution factors", "why_tests_cant": "Differential identity over a continuum of compositions.", "anchors": ["Reaktoro/Thermodynamics/Aqueous/ActivityModelDebyeHuckel.cpp: activityPropsFnDebyeHuckel", "Reaktoro/Thermodynamics/Aqueous/ActivityModelDebyeHuckel.hpp: ActivityModelDebyeHuckel"]}
{"id": "C62", "title": "Chained activity models apply in order and correct only their own species", "statement": "A chain of activity models evaluates them in order on the same properties. A model for one dissolved species (Setschenow, Drummond, Rumpf, Duan-Sun) that follows a base aqueous model changes the activity and activity coefficient of that species and nothing else, and throws when no base model precedes it.", "quantifier": "all chains of models, phases, compositions and previous contents", "why_tests_cant": "Statement about all compositions of models.", "anchors": ["Reaktoro/Core/ActivityModel.cpp: chain", "Reaktoro/Thermodynamics/Aqueous/ActivityModelSetschenow.cpp", "Reaktoro/Thermodynamics/Aqueous/ActivityModelDrummond.cpp", "Reaktoro/Thermodynamics/Aqueous/ActivityModelRumpf.cpp", "Reaktoro/Thermodynamics/Aqueous/ActivityModelDuanSun.cpp"]}
{"id": "C63", "title": "Gas activity models use the ions of the phase they are evaluated for", "statement": "The activity coefficient of a dissolved gas from the Rumpf and the Duan-Sun models is the published function of the temperature, pressure and molalities of the Na+, K+, Ca++, Mg++, Cl- and SO4-- ions of that phase, whatever else the process evaluated before.", "quantifier": "all phases, compositions and histories of evaluations in the process", "why_tests_cant": "Depends on the whole history of the process through static variables.", "anchors": ["Reaktoro/Thermodynamics/Aqueous/ActivityModelRumpf.cpp", "Reaktoro/Thermodynamics/Aqueous/ActivityModelDuanSun.cpp"]}
{"id": "C64", "title": "The Wagner-Pruss Helmholtz state contains the derivatives it says it does", "statement": "The first, second and third derivatives with respect to temperature and density in the Helmholtz state of water of the Wagner-Pruss equation of state are the partial derivatives of its specific Helmholtz energy, jointly in temperature and density.", "quantifier": "all temperatures and densities above zero, other than the critical density, where the code divides zero by zero", "why_tests_cant": "56 terms and ten derivative formulas over a continuum of states.", "anchors": ["Reaktoro/Thermodynamics/Water/WaterHelmholtzStateWagnerPruss.cpp: waterHelmholtzStateWagnerPruss"]}
{"id": "C65", "title": "The Haar-Gallagher-Kell Helmholtz state contains the derivatives it says it does", "statement": "The first, second and third derivatives with respect to temperature and density in the Helmholtz state of water of the Haar-Gallagher-Kell equation of state are the partial derivatives of its specific Helmholtz energy.", "quantifier": "all temperatures above 259 K and densities up to 2800 kg/m3 other than two reference densities", "why_tests_cant": "Ten derivative formulas over a continuum of states.", "anchors": ["Reaktoro/Thermodynamics/Water/WaterHelmholtzStateHGK.cpp: waterHelmholtzStateHGK"]}
{"id": "C66", "title": "The thermodynamic state of water is consistent", "statement": "At every state where the density solves the pressure equation, the derivatives of density in the thermodynamic state of water are the derivatives of the density function with respect to temperature and pressure; entropy and volume are the derivatives of the Gibbs energy; heat capacities are the derivatives of the enthalpy at constant pressure and of the internal energy at constant density; the derivatives of pressure are those of the pressure as a function of temperature and density.", "quantifier": "all Helmholtz models of water, temperatures, pressures and branches of the density, except at a spinodal or at the density maximum", "why_tests_cant": "Differential identities over a continuum of states on implicitly defined branches.", "anchors": ["Reaktoro/Thermodynamics/Water/WaterThermoStateUtils.cpp: waterThermoState, waterThermoStateHGK, waterThermoStateWagnerPruss"]}
{"id": "C67", "title": "Water vapour becomes an ideal gas at low density, and the pressure functions give their own equation of state", "statement": "For both equations of state of water, at every temperature the pressure divided by density tends to the specific gas constant times temperature as density tends to zero; the pressure functions named after an equation of state return the pressure of that equation of state.", "quantifier": "all temperatures and all densities", "why_tests_cant": "Limit statement over a continuum of states.", "anchors": ["Reaktoro/Thermodynamics/Water/WaterHelmholtzStateWagnerPruss.cpp", "Reaktoro/Thermodynamics/Water/WaterHelmholtzStateHGK.cpp", "Reaktoro/Thermodynamics/Water/WaterUtils.cpp: waterPressureWagnerPruss, waterPressureHGK"]}
{"id": "C68", "title": "The density of water solves the pressure equation", "statement": "A density returned by the water density functions is positive and the pressure of the equation of state at that density is the requested pressure to within the tolerance; otherwise an exception is thrown.", "quantifier": "all temperatures, pressures, phases and Helmholtz models", "why_tests_cant": "Termination and accuracy of an iteration for every input.", "anchors": ["Reaktoro/Thermodynamics/Water/WaterUtils.cpp: waterDensity, waterDensityHGK, waterDensityWagnerPruss"]}
{"id": "C69", "title": "The dielectric constant of water and the Born functions are consistent", "statement": "The derivatives of the dielectric constant of water in the Johnson-Norton state are its derivatives along the thermodynamic state of water, and the Born functions Z, Y, Q, X, U and N are the documented functions: Z is minus its reciprocal, Y and Q its derivatives with respect to temperature and pressure, X, U and N those of Y and Q.", "quantifier": "all temperatures and pressures and all consistent states of water", "why_tests_cant": "Differential identities over a continuum of states.", "anchors": ["Reaktoro/Thermodynamics/Water/WaterElectroStateJohnsonNorton.cpp: waterElectroStateJohnsonNorton"]}
{"id": "C70", "title": "The HKF standard properties of solutes and solvent are consistent", "statement": "The standard properties of aqueous solutes and of the solvent from the HKF models obey the thermodynamic relations: volume is the pressure derivative of the Gibbs energy, G = H - TS plus a constant of the substance with S minus the temperature derivative of G, the heat capacity and V - T dV/dT are the temperature and pressure derivatives of the enthalpy; the g function and the effective Born coefficient carry their own derivatives.", "quantifier": "all parameters, charges, temperatures and pressures", "why_tests_cant": "Differential identities over a continuum of states with piecewise formulas.", "anchors": ["Reaktoro/Models/StandardThermoModelHKF.cpp", "Reaktoro/Models/StandardThermoModelWaterHKF.cpp", "Reaktoro/Models/Support/SpeciesElectroPropsHKF.cpp: gHKF::compute, speciesElectroPropsHKF"]}
{"id": "C71", "title": "Saved thermodynamic models are read back", "statement": "The YAML node of a standard thermodynamic model or reaction model, saved and loaded again, gives a model with the same kind and parameters that evaluates to the same properties; whatever is loaded comes from the entries of the node, with the documented defaults.", "quantifier": "all standard and reaction thermodynamic models, all parameters, all temperatures and pressures, all nodes", "why_tests_cant": "A round trip over all parameter values and model compositions.", "anchors": ["Reaktoro/Serialization/Models.YAML.cpp", "Reaktoro/Models/StandardThermoModelYAML.cpp", "Reaktoro/Models/ReactionThermoModelYAML.cpp"]}
{"id": "C72", "title": "Numbers and lists of names and numbers written as text are read back", "statement": "An elemental composition or list of reactants written as text, and read with the parser of number-string pairs, gives back the same names in the same order with the same numbers.", "quantifier": "all lists of names and numbers", "why_tests_cant": "A round trip through a decimal text format, over all numbers.", "anchors": ["Reaktoro/Core/ElementalComposition.cpp: repr", "Reaktoro/Serialization/Core.YAML.cpp", "Reaktoro/Common/ParseUtils.cpp: parseNumberStringPairs, parseReaction"]}
{"id": "C73", "title": "A saved database is loaded again with the same contents", "statement": "Saving a database as YAML and loading the result gives a database with the same elements, the same species with the same data and models in the same order, and the same species for every aggregate state.", "quantifier": "all databases, built by any sequence of calls or loaded from any document", "why_tests_cant": "A round trip over all databases, formation reactions and models.", "anchors": ["Reaktoro/Serialization/Core.YAML.cpp", "Reaktoro/Core/Support/DatabaseParserYAML.cpp", "Reaktoro/Core/Database.cpp"]}
{"id": "C74", "title": "Standard properties of a system belong to its temperature and pressure", "statement": "After an update that returns normally, the standard properties of every species, and the temperatures and pressures of every phase, are those the standard models give at the requested temperature and pressure with the current parameters, whatever updates came before; entropies, internal energies and Helmholtz energies follow from them.", "quantifier": "all systems, all standard models, all histories of updates, parameter changes and exceptions", "why_tests_cant": "The outcome depends on the history of updates because phases skip updates; every history must be covered.", "anchors": ["Reaktoro/Core/ThermoProps.cpp", "Reaktoro/Core/ThermoPropsPhase.hpp: update"]}
{"id": "C75", "title": "A PHREEQC database is loaded completely and faithfully", "statement": "Loading a PHREEQC database that PHREEQC has read gives one species for every species and phase, under its name, with its formula, charge, elements and aggregate state, and a formation reaction with the reactants and coefficients PHREEQC has; reactions without cycles always load, and a load that fails leaves the database as before.", "quantifier": "all contents of PHREEQC, all orders of species, all depths of nested reactions", "why_tests_cant": "The outcome depends on the order of species and the nesting of reactions, over all databases.", "anchors": ["Reaktoro/Extensions/Phreeqc/PhreeqcDatabase.cpp: PhreeqcDatabaseHelper, PhreeqcDatabase::load", "Reaktoro/Extensions/Phreeqc/PhreeqcUtils.cpp"]}
{"id": "C76", "title": "Species of PHREEQC databases obey the equilibrium constants of PHREEQC", "statement": "In a loaded PHREEQC database, the standard Gibbs energies of a species or phase and of the reactants of its reaction differ by RT ln K, where log K at every temperature is the analytical expression of PHREEQC or, without one, the van 't Hoff equation from the constant and enthalpy at 25 C; volumes are those of PHREEQC.", "quantifier": "all contents of PHREEQC, all temperatures and pressures", "why_tests_cant": "A relation between numbers at every temperature, through nested reactions of any depth.", "anchors": ["Reaktoro/Extensions/Phreeqc/PhreeqcThermo.cpp", "Reaktoro/Extensions/Phreeqc/PhreeqcWater.cpp", "Reaktoro/Extensions/Phreeqc/PhreeqcDatabase.cpp"]}
{"id": "C77", "title": "The properties of water for PHREEQC databases are consistent with each other", "statement": "At every temperature and pressure, the compressibility is the derivative of the logarithm of the density, the Born function Q is the pressure derivative of Z, and the Debye-Huckel slope for volumes follows from the pressure derivative of the Debye-Huckel parameter A.", "quantifier": "all temperatures and pressures", "why_tests_cant": "Derivatives at every temperature and pressure.", "anchors": ["Reaktoro/Extensions/Phreeqc/PhreeqcWater.cpp: waterThermoProps, waterElectroProps"]}
{"id": "C78", "title": "The Spycher-Reed gas model is one consistent virial equation of state", "statement": "For every mixture of H2O, CO2 and CH4 at every temperature and pressure, the compressibility factor is the virial expansion with the published coefficients; residual volume, enthalpy and heat capacities follow from the residual Gibbs energy; fugacity coefficients are its partial molar values and tend to one at zero pressure; activities are fugacities in bar; the order of the species does not matter; phases with other species are refused.", "quantifier": "all mixtures of the three gases in any order, all temperatures and pressures", "why_tests_cant": "Derivatives with respect to temperature, pressure and amounts, at every state.", "anchors": ["Reaktoro/Thermodynamics/Fluids/ActivityModelSpycherReed.cpp: activityPropsFnSpycherReed"]}
{"id": "C79", "title": "The Spycher-Pruess-Ennis model is the Redlich-Kwong equation of state of CO2 with traces of H2O", "statement": "At every temperature and pressure, the molar volume solves the Redlich-Kwong equation and is the most stable solution above the covolume, the excess volume is the difference to an ideal gas, and the fugacity coefficients of CO2 and H2O are the partial molar residual Gibbs energies of the equation of state.", "quantifier": "all temperatures and pressures, all phases and compositions, all earlier evaluations", "why_tests_cant": "A choice between roots of a cubic equation at every state, and derivatives with respect to amounts.", "anchors": ["Reaktoro/Thermodynamics/Fluids/ActivityModelSpycherPruessEnnis.cpp: volumeCO2, activityPropsFnSpycherPruessEnnis"]}
{"id": "C80", "title": "The Pitzer model is one consistent excess Gibbs energy", "statement": "For every aqueous solution within the range of the tables, the activity coefficients of ions and neutral solutes and the activity of water of the Pitzer model are the derivatives of one excess Gibbs energy, that of Pitzer's equations with the published interaction parameters; the parameters do not depend on the order or the spelling of the formulas; an evaluation returns for every solution, and outside the range of the tables it is refused.", "quantifier": "all sets of cations, anions and neutral solutes, all molalities, all temperatures and pressures", "why_tests_cant": "Derivatives with respect to every molality at every composition, over all sets of ions.", "anchors": ["Reaktoro/Thermodynamics/Aqueous/ActivityModelPitzerHMW.cpp: lnActivityCoefficientCation, lnActivityCoefficientAnion, lnActivityCoefficientNeutral, lnActivityWater, activityPropsFnPitzerHMW"]}
{"id": "C81", "title": "SUPCRT standard properties agree with the SI models, are consistent and do not depend on history", "statement": "For every water, solute, gas and mineral of a SUPCRT database, the standard properties computed with its parameters in calories, bars and cubic centimetres are those of the corresponding model with the parameters converted to SI units; the volume is the pressure derivative of the Gibbs energy; the internal and Helmholtz energies are H - PV and U - TS; temperatures outside the range of validity are refused; and the values do not depend on earlier calls, on the memoization switch or on failures of earlier calls.", "quantifier": "all parameters, all temperatures and pressures, all sequences of calls with the switch on or off", "why_tests_cant": "Unit conversions inside long formulas, derivatives at every state, and all call histories.", "anchors": ["Reaktoro/Extensions/Supcrt/SupcrtModels.cpp: supcrtStandardThermoPropsSolventHKF, supcrtStandardThermoPropsSoluteHKF, supcrtStandardThermoPropsMaierKelly, supcrtStandardThermoPropsMaierKellyHKF", "Reaktoro/Extensions/Supcrt/SupcrtEngine.cpp: SupcrtEngine::props", "Reaktoro/Extensions/Supcrt/SpeciesElectroStateHKF.cpp: speciesElectroStateHKF"]}
{"id": "C82", "title": "Loading a SUPCRT database gives what the file says, or fails", "statement": "Loading a SUPCRT database file whose entries are complete succeeds and gives exactly the species of the file in their order, each with the formula, composition, charge and aggregate state written there, with the standard model that belongs to its type and exactly the parameters written there, renamed only if the name is taken; the tables of a mineral always have the right lengths; missing data and unknown elements are reported; only the four embedded names are accepted; and the numeric locale of the process is unchanged by loading, whether it succeeds or fails, and has no influence on the result.", "quantifier": "all documents, all locales, all sequences of loadings and locale changes, successful or not", "why_tests_cant": "All documents including incomplete ones, and every exit path.", "anchors": ["Reaktoro/Extensions/Supcrt/SupcrtDatabase.cpp: parseSpecies, parseElements, parseParams, parseParamsMaierKellyHKF, ChangeLocale, SupcrtDatabase::withName, SupcrtDatabase::fromFile"]}
{"id": "C83", "title": "The LU solver solves every consistent system, whatever it factorised before", "statement": "After any sequence of factorisations with and without weights, the factors held by the LU solver are those of the last matrix, lower and upper triangular with P A Q = L U; solve returns a solution of A X = B, and trsolve a solution of the transposed system, for every right-hand side that has one, whatever the shape and rank of the matrix; and empty tells whether something was factorised.", "quantifier": "all matrices of all shapes and ranks, all weights, all right-hand sides, all sequences of factorisations", "why_tests_cant": "All shapes, ranks and histories, including repeated matrices for which the factorisation is skipped.", "anchors": ["Reaktoro/Math/LU.cpp: LU::compute, LU::solve, LU::trsolve, LU::empty"]}
{"id": "C84", "title": "Numerical derivatives are accurate to the order of the scheme and stay in the domain", "statement": "For every function whose derivative along a coordinate is Lipschitz with constant M, forward and backward differences are within M h / 2 of the derivative, h being the fraction 1e-8 of the coordinate or 1e-8 at zero; central differences are within M h^2 / 6 for a Lipschitz second derivative and h the fraction 1e-6; the versions for vector functions agree with the scalar ones row by row; and a function defined only for coordinates of given signs is never evaluated elsewhere.", "quantifier": "all functions with the stated smoothness, all points and dimensions", "why_tests_cant": "An error bound for all smooth functions and points.", "anchors": ["Reaktoro/Math/Derivatives.cpp: derivativeForward, derivativeBackward, derivativeCentral"]}
{"id": "C85", "title": "Mineral mechanisms and catalysts are read from text as documented", "statement": "A text made of options for the rate constant, the activation energy, the powers and catalysts, in any order, with any spacing and any convertible units, gives the mechanism with these values in mol/(m2*s) and kJ/mol; the texts of the documentation are accepted; incomplete or malformed options are refused with an error; and two mechanisms or catalysts are equal only when all their members are.", "quantifier": "all texts made of any number of options", "why_tests_cant": "All texts, spacings, orders of options and units.", "anchors": ["Reaktoro/Reactions/Mineral/MineralMechanism.cpp: MineralMechanism::MineralMechanism, setRateConstant, setActivationEnergy, setCatalysts, operator==", "Reaktoro/Reactions/Mineral/MineralCatalyst.cpp: MineralCatalyst::MineralCatalyst, operator=="]}
{"id": "C86", "title": "Alternative names of a species are recognised as one, whatever was asked before", "statement": "Every way of writing a charged species (Ca++, Ca+2, Ca[2+]) is split into its base name and charge and has the same conventional name; every way of writing a neutral species (CO2(aq), CO2, CO2@, CO2,aq) has the same base name; after any sequence of queries and of names added by users, a name is an alternative exactly when it is one of the announced forms or was added for that species; and a name in none of these forms is refused.", "quantifier": "all base names, all charges, all ways of writing, all histories of queries and additions", "why_tests_cant": "All names and charges, and all histories of two maps that live as long as the process.", "anchors": ["Reaktoro/Common/NamingUtils.cpp: splitChargedSpeciesName, conventionalChargedSpeciesName, alternativeChargedSpeciesNames, alternativeNeutralSpeciesNames, isAlternativeChargedSpeciesName, isAlternativeNeutralSpeciesName, baseNameNeutralSpecies"]}
{"id": "C87", "title": "The equilibrium record of a state is a value, and shows what was last stored in it", "statement": "Copies and assignments of the equilibrium record of a chemical state (names of inputs, w, p, q, b, primary and secondary species, state of the optimisation) are independent of the original; after any sequence of setters each getter returns what was last stored; the primary and secondary species partition the species for every accepted number of primary species; and the start of the next calculation follows the setters of p and of q.", "quantifier": "all programs on records, all sequences of setters, all values", "why_tests_cant": "All programs with any number of records; the faulty partition is seen only with a count no caller uses today.", "anchors": ["Reaktoro/Core/ChemicalState.cpp: ChemicalState::Equilibrium"]}
{"id": "C88", "title": "Copies of chemical states and of porous rock states are independent and equal to the original", "statement": "For any program that creates, copies, assigns and changes states, each object shows what happened to it since its creation or last copy: a copy equals the original when made and no later change of one is seen in another.", "quantifier": "all programs on states, with and without assertions", "why_tests_cant": "All sequences of copies, assignments and changes of any number of objects.", "anchors": ["Reaktoro/Core/ChemicalState.cpp: ChemicalState, operator=", "Reaktoro/Extensions/PorousMedia/PorousRockState.cpp: PorousRockState, operator="]}
{"id": "C89", "title": "The tables of the optimisation output are aligned and show the values given", "statement": "For all names of columns, widths, separators and values that fit, every line printed has its columns at the places of the header, shows the values given for this line, and nothing given while output was switched off.", "quantifier": "all options, entries, values and histories of switching the output on and off", "why_tests_cant": "All lengths of names and values and all histories of options.", "anchors": ["Reaktoro/Common/Outputter.cpp: Outputter"]}
{"id": "C90", "title": "Newton's method reports success exactly when it met the tolerance, and returns a value with that residual", "statement": "For every function, starting point, tolerance and limit of iterations: success is reported exactly when one of the points visited has a residual within the tolerance, with the number of the first one; the value returned has a residual within the tolerance; it is within a bound of the root for functions of bounded slope; and for convex increasing functions the iteration converges from the right.", "quantifier": "all differentiable functions, starting points, tolerances, limits", "why_tests_cant": "All functions and tolerances; the residual of the returned value is arbitrarily large for some.", "anchors": ["Reaktoro/Math/Roots.hpp: newton"]}
{"id": "C91", "title": "Parameters are found by their id, stay shared with the list they were put in, and are copied by clone", "statement": "In any program: a parameter is found at the first position that has its id and an unknown id is refused; a parameter appended to a list stays the same parameter in the list; and a clone shows what the original shows, and no later change of one is seen in the other.", "quantifier": "all programs on parameters and lists of parameters", "why_tests_cant": "All interleavings of changes through any number of handles of shared records.", "anchors": ["Reaktoro/Core/Params.cpp: Params", "Reaktoro/Core/Param.cpp: Param"]}
{"id": "C92", "title": "Fluids with cubic equations of state are built from registered data and do not depend on how species are ordered or counted", "statement": "A phase with a cubic equation of state gets, for each species, the critical properties registered for its substance, formula or name, or is refused, as is a phase with species that are not all gases or all liquids; its properties do not depend on the order of species nor on whether equal species are counted together or separately; activities are fugacities in bar; an absent phase has defined activity coefficients; and at low pressure a vapor becomes an ideal gas.", "quantifier": "all registries, lists of species, equations of state, phase identification methods, temperatures, pressures, fractions, maps between lists of species", "why_tests_cant": "All permutations and groupings of any number of species, and a limit of pressure.", "anchors": ["Reaktoro/Thermodynamics/Fluids/ActivityModelCubicEOS.cpp: ActivityModelCubicEOS", "Reaktoro/Thermodynamics/Fluids/CubicEOS.cpp: CubicEOS::compute", "Reaktoro/Singletons/CriticalProps.cpp: CriticalProps::get"]}
{"id": "C93", "title": "The chemical system taken from PHREEQC has the species of the script and conserves what its reactions conserve", "statement": "After a PHREEQC script was executed, the chemical system has as species those with reactions in the solution, the gases of the gas phase and the minerals, each once, in the order of phases; the formula matrix has for each species the amounts of elements, of electric charge and the mass of its formula; and every reaction of the database conserves each element and charge.", "quantifier": "all states of the PHREEQC engine: lists of elements, species, phases and unknowns, reactions with any number of terms", "why_tests_cant": "All databases and scripts: any number of species and reactions, with redox elements in several states.", "anchors": ["Reaktoro/Extensions/Phreeqc/Phreeqc.cpp: Phreeqc::Impl::initializeSpecies, initializeElements, initializeElementsStoichiometry", "Reaktoro/Extensions/Phreeqc/PhreeqcUtils.cpp: PhreeqcUtils::reactionEquation, isGaseousSpecies, activeAqueousSpecies, activeProductSpecies"]}
{"id": "C94", "title": "The properties that PHREEQC computes are those at the last temperature, pressure and amounts that were set", "statement": "After any history of executed scripts and changes of state, the properties are functions of the last temperature, pressure and amounts only; standard Gibbs energies and equilibrium constants belong together; activities are coefficients times molalities, or fugacities, and chemical potentials of reactions are RT times the logarithm of activity product over equilibrium constant at the ionic strength of the solution.", "quantifier": "all sequences of calls, all systems and functions of PHREEQC for equilibrium constants, activity coefficients and gases, temperatures, pressures and amounts", "why_tests_cant": "All histories of calls and all results of the external program.", "anchors": ["Reaktoro/Extensions/Phreeqc/Phreeqc.cpp: Phreeqc::Impl::set, updateThermoProperties, updateChemicalProperties, updateAqueousProperties, updateGaseousProperties, setSpeciesAmounts, lnActivities, lnEquilibriumConstants, speciesMolarGibbsEnergies"]}
{"id": "C95", "title": "SUPCRTBL standard properties are those of the models, for parameters in the documented units", "statement": "For parameters in the units that are documented, the functions for solvent, solutes, gases, liquids and minerals of SUPCRTBL return, in SI units, the standard properties of the HKF model and of the model of Holland and Powell; the returned properties are consistent with each other (entropy, heat capacity and volume are derivatives of the Gibbs energy and the enthalpy).", "quantifier": "all temperatures, pressures, states of water and parameters", "why_tests_cant": "All parameters, temperatures and pressures: statements about derivatives and units of real functions.", "anchors": ["Reaktoro/Extensions/Supcrtbl/SupcrtblModels.cpp: supcrtblStandardThermoPropsSolventHKF, supcrtblStandardThermoPropsSoluteHKF, supcrtblStandardThermoPropsFluidHollandPowell, supcrtblStandardThermoPropsMineralHollandPowell", "Reaktoro/Extensions/Supcrtbl/SupcrtblParams.hpp"]}
{"id": "C96", "title": "Elements, species, phases and reactions are values", "statement": "Objects of these classes behave as plain values although copies share memory: a method named with... returns a changed copy, in which exactly the named attribute is different, and leaves the object and all its copies as they were, also when it throws; constructors either fail as documented or give an object with the given attributes; every attribute of every object can be read; a phase has species of one aggregate state and the molar masses of its present species.", "quantifier": "all programs of constructor calls, copies, assignments and with... methods, any number of objects and arguments", "why_tests_cant": "All histories of calls on shared objects.", "anchors": ["Reaktoro/Core/Element.cpp: Element", "Reaktoro/Core/Species.cpp: Species", "Reaktoro/Core/Phase.cpp: Phase", "Reaktoro/Core/Reaction.cpp: Reaction"]}
{"id": "C97", "title": "A ThermoFun database has the substances of the file, with the properties that ThermoFun computes", "statement": "Loading a ThermoFun database gives one species for each substance, with its symbol, formula, composition, charge, aggregate state and substance name; the standard properties of the species are those of ThermoFun at the given temperature and pressure, in SI units, with their derivatives; an unknown species is an error.", "quantifier": "all files: any substances, formulas and elements; all thermodynamic functions, temperatures and pressures", "why_tests_cant": "All files and all results of the external library; depends on memory that tests see initialised by chance.", "anchors": ["Reaktoro/Extensions/ThermoFun/ThermoFunDatabase.cpp: ThermoFunDatabase::fromFile", "Reaktoro/Extensions/ThermoFun/ThermoFunEngine.cpp: ThermoFunEngine::props", "Reaktoro/Core/Species.cpp: Species::aggregateState"]}
{"id": "C98", "title": "Lists of elements, species and phases find and select what they are asked for", "statement": "Functions named find... return the position of the first item with the given name, symbol, formula, substance, species or state, or the number of items; those named index... and get... throw instead; those named with... return, for keys, one item per key in the order of the keys, and for conditions exactly the items that meet the condition in the order of the list. Formulas are compared by composition and charge, whatever the order of elements. Ranges have exactly the numbers of the progression below the end.", "quantifier": "all lists of elements, species and phases; all names, formulas, tags and lists of keys; all ranges", "why_tests_cant": "All lists, with repeated and missing items, and all keys.", "anchors": ["Reaktoro/Core/ElementList.hpp: ElementListBase", "Reaktoro/Core/SpeciesList.hpp: SpeciesListBase", "Reaktoro/Core/PhaseList.hpp: PhaseListBase", "Reaktoro/Core/ChemicalFormula.cpp: ChemicalFormula::equivalent", "Reaktoro/Common/Algorithms.hpp: indexfn, filter, vectorize, contained, merge, range, sum"]}
{"id": "C99", "title": "The saturation curve of water is the published one", "statement": "For every temperature up to the critical one the saturation pressure and the densities of the saturated liquid and vapour are those of the auxiliary equations of Wagner and Pruss (2002); they end at the critical point; pressure and vapour density increase with temperature, the density of the liquid decreases above 280 K, and the vapour is lighter than the liquid.", "quantifier": "all temperatures between zero (for the liquid, the triple point) and the critical temperature", "why_tests_cant": "A continuum of temperatures; monotonicity relates all pairs of temperatures.", "anchors": ["Reaktoro/Thermodynamics/Water/WaterUtils.cpp: waterSaturatedPressureWagnerPruss, waterSaturatedLiquidDensityWagnerPruss, waterSaturatedVapourDensityWagnerPruss"]}
{"id": "C100", "title": "Derivatives in an equilibrium calculation are those at its inputs, whatever was calculated before", "statement": "For every sequence of requests of the optimizer and every history of calculations with the same solver and state, the optimizer gets the objective value, its gradient, the constraint residuals and exactly the derivatives it asked for, with respect to amounts, control variables and inputs, at the point and inputs of the calculation; the recorded derivatives of the chemical properties are the partial derivatives.", "quantifier": "all problems with differentiable functions, all histories of calculations with given inputs or inputs taken from the state, and all sequences of requests of the optimizer", "why_tests_cant": "Derivatives are carried inside numbers; whether one survives from an earlier calculation depends on the history and on the order of the optimizer's requests.", "anchors": ["Reaktoro/Equilibrium/EquilibriumSetup.cpp: evalObjectiveHessianX, evalObjectiveHessianP, evalObjectiveHessianW, evalEquationConstraintsGradX", "Reaktoro/Equilibrium/EquilibriumSolver.cpp: updateOptProblem, updateChemicalState", "Reaktoro/Equilibrium/EquilibriumProps.cpp: indexOfSeededVariable"]}
{"id": "C101", "title": "The aqueous activity models use the published parameters of each ion", "statement": "For every formula, the Debye-H\u00fcckel models use the ion size and coefficient published by PHREEQC, WATEQ4F or Kielland for the substance with the same composition and charge, however it is spelled and in whatever order the parameters are stored, and the default for all others; setters replace the parameters whatever was set before. For every species name, the HKF model uses the published effective radius of the ion with that name in any of its notations, or a positive estimate from the charge. The Debye-H\u00fcckel parameters of the HKF model are those of its tables at the tabulated conditions, positive between them, and refused outside.", "quantifier": "all formulas and spellings; all maps of parameters; all histories of setters and of alternative names; all names and charges; all temperatures and pressures", "why_tests_cant": "All formulas, names, charges, temperatures, pressures and histories of setters.", "anchors": ["Reaktoro/Thermodynamics/Aqueous/ActivityModelDebyeHuckel.cpp: aions_phreeqc, bions_phreeqc, aions_wateq4f, bions_wateq4f, aions_kielland, get, ActivityModelDebyeHuckelParams", "Reaktoro/Thermodynamics/Aqueous/ActivityModelHKF.cpp: effectiveIonicRadius, debyeHuckelParamA, debyeHuckelParamB, solventParamNaCl, shortRangeInteractionParamNaCl"]}
{"id": "C102", "title": "Phase definitions keep what their class and setters say", "statement": "For every program that constructs definitions of phases and generators of phases (generic, aqueous, gaseous, liquid, solid, mineral), changes them with setters and adds them to a collection, the collection has one definition per call that added one, with the attributes it had in that moment: the value last set or the one its class stands for. Converting the collection gives first one phase per definition in this order and then one per species of each generator, each with the requested species, the state of matter of its definition, and the functions its activity model and ideal activity model give for exactly these species; it succeeds whenever models and aggregate states are set, the named species exist and each definition requests a species. An aqueous phase restricted by elements or tags always has hydrogen and oxygen.", "quantifier": "all programs of constructor, setter and add calls; all databases, activity models and arguments", "why_tests_cant": "All histories of calls on any number of definitions.", "anchors": ["Reaktoro/Core/Phases.hpp: Speciate, Exclude, AqueousPhase, GaseousPhase, LiquidPhase, SolidPhase, MineralPhase, MineralPhases", "Reaktoro/Core/Phases.cpp: GenericPhase, GenericPhasesGenerator, Phases::add, Phases::convert"]}
{"id": "C103", "title": "Equilibrium solvers as objects: options, overloads, copies, several states", "statement": "A program may make any number of equilibrium solvers, set their options, copy and assign them and call any overload of solve on any chemical state, in any order. Every calculation uses the options of the last setOptions that its solver accepted; options that are refused with an exception change nothing. The overloads without conditions are the full one with temperature, pressure and amounts of the state, those without restrictions the full one without any. No calculation, copy or change of options affects another solver or another state. Every calculation begins at a point that has an entry for each unknown of its specification, whatever solver calculated the state before.", "quantifier": "all programs of constructor, setOptions, copy, assignment and solve calls on any number of solvers and states; all specifications, options and optimisers", "why_tests_cant": "All histories over several objects.", "anchors": ["Reaktoro/Equilibrium/EquilibriumSolver.cpp: EquilibriumSolver::setOptions, EquilibriumSolver::solve, copy constructor, assignment", "Reaktoro/Equilibrium/EquilibriumOptions.hpp: EquilibriumOptions", "Reaktoro/Equilibrium/EquilibriumSetup.cpp: EquilibriumSetup::setOptions"]}
{"id": "C104", "title": "The shipped databases: names, loading, compositions and Gibbs energies", "statement": "Each database file shipped with the program (supcrt98, supcrt07, supcrt16, supcrtbl) is loaded without error; the database has exactly the species of the file, no name twice, each with the formula, elements, charge and state written there. The elements and the charge of every species are those of its own formula, and no parameter that enters its Gibbs energy is undefined. In the embedded XML files the coefficient reported for an element is the number of its atoms.", "quantifier": "all species of the four files (7173), all load orders and depths; for the XML format all lists of elements", "why_tests_cant": "Thousands of records; loading succeeds only if every one is well formed, and a wrong composition silently breaks mass balance.", "anchors": ["databases/reaktoro/supcrt98.yaml, supcrt07.yaml, supcrt16.yaml, supcrtbl.yaml", "Reaktoro/Core/Support/DatabaseParserYAML.cpp: DatabaseParserYAML", "Reaktoro/Extensions/Supcrt/SupcrtDatabase.cpp: parseElements", "Reaktoro/Models/StandardThermoModelYAML.cpp: StandardThermoModelYAML"]}
{"id": "C105", "title": "The equilibrium state has the least Gibbs energy, and there is only one", "statement": "A state that satisfies the equilibrium conditions of a calculation at given temperature and pressure has the least value of the objective (the Gibbs energy, with the barrier term) among all states with the same amounts of elements and within the bounds. Two such states have the same mole fractions, activities and chemical potentials, and with the default options the same amounts of all species; so the result depends on the conditions and the amounts of elements only, not on the initial state.", "quantifier": "all systems of any number of phases and species, all formula matrices, bounds, titrants with given chemical potentials, temperatures, pressures and standard Gibbs energies, all pairs of states", "why_tests_cant": "Comparing runs from a few initial guesses samples finitely many states of a continuum; a second equilibrium may be missed.", "anchors": ["Reaktoro/Equilibrium/EquilibriumSolver.cpp: EquilibriumSolver::solve", "Reaktoro/Equilibrium/EquilibriumSetup.cpp: EquilibriumSetup::evalObjectiveValue, EquilibriumSetup::evalObjectiveGradX, EquilibriumSetup::assembleLowerBoundsVector", "Reaktoro/Thermodynamics/Ideal/ActivityModelIdealSolution.cpp: ActivityModelIdealSolution", "Reaktoro/Thermodynamics/Ideal/ActivityModelIdealGas.cpp: ActivityModelIdealGas", "Reaktoro/Thermodynamics/Ideal/ActivityModelIdealAqueous.cpp: ActivityModelIdealAqueous", "Reaktoro/Thermodynamics/Solids/ActivityModelRedlichKister.cpp: ActivityModelRedlichKister"]}
{"id": "C106", "title": "Utilities for matrices: independent columns, cleaning and precise residuals", "statement": "linearlyIndependentCols and linearlyIndependentRows return increasing indices of linearly independent columns (rows), and all other ones are combinations of them; the forms with an output matrix store them there. cleanRationalNumbers changes the entries of the given matrix and no other number. dot3p returns s + x.y and residual3p returns A x - b, no matter how the numbers are split and the sums of the upper parts rounded.", "quantifier": "all matrices of all sizes, all blocks of matrices, all vectors, all roundings", "why_tests_cant": "Dependence of columns, block layouts and roundings vary without bound; a test fixes a few matrices.", "anchors": ["Reaktoro/Math/MathUtils.cpp: linearlyIndependentCols, linearlyIndependentRows, cleanRationalNumbers, dot3p, residual3p"]}
{"id": "C107", "title": "Properties and equilibria of a larger system", "statement": "If all amounts are multiplied by a factor at the same temperature and pressure, then amounts, masses, volumes and energies are multiplied by it, and mole fractions, activities, chemical potentials, standard and molar properties and densities do not change. If the amounts of elements are multiplied by a factor, the equilibrium state is the same state with all amounts multiplied by it.", "quantifier": "all systems, phases, standard and activity models, temperatures, pressures, amounts and factors, all previous contents of the properties", "why_tests_cant": "An identity for all compositions, factors and models; tests compare a few pairs of sizes.", "anchors": ["Reaktoro/Core/ChemicalProps.cpp: ChemicalProps::update, ChemicalProps::volume, ChemicalProps::gibbsEnergy", "Reaktoro/Core/ChemicalPropsPhase.hpp: ChemicalPropsPhaseBase::_update", "Reaktoro/Equilibrium/EquilibriumSetup.cpp: EquilibriumSetup::evalObjectiveGradX"]}
{"id": "C108", "title": "Imposed pH, activities, fugacities, potentials, pE and Eh are those of the equilibrium state", "statement": "If the specification of an equilibrium problem asks for a pH, a pMg, an activity, a fugacity or a chemical potential, then in the state that is calculated the substance has that activity, fugacity or potential; if it asks for a pE or an Eh, every half-reaction between species of the state satisfies the Nernst equation for that value. This holds whatever else the specification asks for.", "quantifier": "all systems, databases, specifications (all sequences of calls), values of inputs, standard and activity models, all states that satisfy the first-order conditions of the problem", "why_tests_cant": "It relates the specification, the matrix of the problem, the potentials of implicit titrants and the optimality conditions for every system and every combination of constraints; tests check a few systems to a tolerance.", "anchors": ["Reaktoro/Equilibrium/EquilibriumSpecs.cpp: EquilibriumSpecs::pH, EquilibriumSpecs::pMg, EquilibriumSpecs::pE, EquilibriumSpecs::Eh, EquilibriumSpecs::fugacity, EquilibriumSpecs::lnActivity, EquilibriumSpecs::chemicalPotential", "Reaktoro/Equilibrium/EquilibriumSetup.cpp: EquilibriumSetup::evalObjectiveGradX, EquilibriumSetup::assembleMatrixAex", "Reaktoro/Core/ChemicalProps.cpp: ChemicalProps::update"]}
{"id": "C109", "title": "Equilibria do not depend on the reference of standard energies", "statement": "If the standard Gibbs energies and enthalpies of all species are changed by a constant for each atom of an element and for each unit of charge, then at the same temperature, pressure and amounts the fractions, activities and the volume are the same, the Gibbs energy and enthalpy change by the sum over the species, reactions that conserve elements and charge have the same Gibbs energy, and a state is an equilibrium for the changed energies if and only if it is for the original ones. This also holds when pH, fugacities or other activities are imposed and the energies of the database change too. Values of pE, Eh and chemical potentials are on a fixed scale: with them, states are the same only if nothing is added for the electron.", "quantifier": "all systems, activity models, temperatures, pressures, amounts, constants per element and charge, specifications (all sequences of calls) and values of inputs", "why_tests_cant": "It compares calculations with all choices of reference energies; a test compares two databases.", "anchors": ["Reaktoro/Core/ChemicalProps.cpp: ChemicalProps::update", "Reaktoro/Core/ChemicalPropsPhase.hpp: ChemicalPropsPhase::update", "Reaktoro/Equilibrium/EquilibriumSetup.cpp: EquilibriumSetup::evalObjectiveGradX, EquilibriumSetup::assembleMatrixAex", "Reaktoro/Equilibrium/EquilibriumSpecs.cpp: EquilibriumSpecs::pH, EquilibriumSpecs::fugacity, EquilibriumSpecs::lnActivity, EquilibriumSpecs::pE, EquilibriumSpecs::Eh"]}
{"id": "C110", "title": "An equilibrium state stays one when the calculation is repeated, continued or the system is closed", "statement": "Let a state be the equilibrium that a calculation with given temperature and pressure returned. If the same calculation is done again from this state, with the same conditions and restrictions, the state is a solution of it, with the same amounts of titrants. If another calculation at this temperature and pressure starts with the amounts in the state and has the same restrictions, it is a solution with no amount of titrants added: when the system is closed, when the same activities or potentials are imposed, and when the equilibrium potential of a species that is not at a bound is imposed. If the phases meet Gibbs' criterion and the default options are used, there is no other solution.", "quantifier": "all systems, specifications without unknowns other than species and implicit titrants, conditions, sequences of restrictions, starting states, options and equilibrium states", "why_tests_cant": "It relates the results of successive calculations for all systems and histories; a test runs two calculations and compares numbers with a tolerance.", "anchors": ["Reaktoro/Equilibrium/EquilibriumSolver.cpp: EquilibriumSolver::solve, EquilibriumSolver::Impl::updateOptProblem", "Reaktoro/Equilibrium/EquilibriumSetup.cpp: EquilibriumSetup::assembleMatrixAex, EquilibriumSetup::assembleLowerBoundsVector, EquilibriumSetup::assembleUpperBoundsVector, EquilibriumSetup::evalObjectiveGradX", "Reaktoro/Equilibrium/EquilibriumRestrictions.cpp: EquilibriumRestrictions", "Reaktoro/Equilibrium/EquilibriumConditions.cpp: EquilibriumConditions::initialComponentAmounts"]}
{"id": "C111", "title": "The order in which phases are given does not matter", "statement": "If the phases of a chemical system are given in another order, a system with the same elements results, in which each species has the same column of the formula matrix, and the same name if no name is used twice. Updating the chemical properties stores the same data for each phase, and volume, energies and every other sum over the phases are the same. A state is an equilibrium of the system if and only if the state with the same amounts of species is an equilibrium of the system with the other order. The exceptions are phases in which different elements have the same symbol.", "quantifier": "all lists of phases and their permutations, activity models, temperatures, pressures, amounts, titrants, bounds and options", "why_tests_cant": "It compares systems with all orders of any number of phases; a test tries one order.", "anchors": ["Reaktoro/Core/ChemicalSystem.cpp: ChemicalSystem::ChemicalSystem", "Reaktoro/Core/ChemicalProps.cpp: ChemicalProps::update, ChemicalProps::volume", "Reaktoro/Equilibrium/EquilibriumSetup.cpp: EquilibriumSetup::assembleMatrixAex, EquilibriumSetup::evalObjectiveGradX"]}
{"id": "C112", "title": "The order in which the species of a phase are given does not matter", "statement": "If the species of a phase are given in another order, the activity model gives each species the same activity coefficient and activity, and the phase the same excess properties, for every activity model and chain of activity models. Each species then has the same chemical potential, the phase the same mass and molar properties, and a state is an equilibrium if and only if the state with the same amounts of species in the other order is one.", "quantifier": "all activity models, lists of species and their permutations, temperatures, pressures, amounts, parameters, bounds and options", "why_tests_cant": "It compares phases with all orders of any number of species; a test tries one order.", "anchors": ["Reaktoro/Thermodynamics/Aqueous/ActivityModelDebyeHuckel.cpp: activityPropsFnDebyeHuckel", "Reaktoro/Thermodynamics/Aqueous/ActivityModelPitzerHMW.cpp: activityPropsFnPitzerHMW", "Reaktoro/Thermodynamics/Aqueous/ActivityModelRumpf.cpp: ActivityModelRumpf", "Reaktoro/Thermodynamics/Solids/ActivityModelRedlichKister.cpp: ActivityModelRedlichKister", "Reaktoro/Thermodynamics/Fluids/ActivityModelCubicEOS.cpp: ActivityModelCubicEOS", "Reaktoro/Core/ChemicalPropsPhase.hpp: ChemicalPropsPhaseBase::update"]}
{"id": "C113", "title": "Equilibria respond to added matter, temperature and pressure as Le Chatelier's principle says", "statement": "Let the phases of a system meet Gibbs' criterion of stability. Adding matter does not lower the chemical potential of what was added. The Gibbs energy of the equilibrium state of two systems put together is not greater than the sum of their Gibbs energies, up to the barrier term of the calculation. When a closed system is heated, what happens takes up heat: the equilibrium state at the higher temperature has at least the enthalpy of the one at the lower temperature, when both are brought to some temperature between. When a system is compressed, what happens makes it smaller, in the same sense.", "quantifier": "all systems, amounts of elements, temperatures, pressures, bounds, standard models and equilibrium states", "why_tests_cant": "It compares equilibrium states of all systems at all pairs of conditions; a test compares a few calculated points, and with tolerances.", "anchors": ["Reaktoro/Equilibrium/EquilibriumSetup.cpp: evalObjectiveValue, evalObjectiveGradX", "Reaktoro/Equilibrium/EquilibriumSolver.cpp: EquilibriumSolver::solve", "Reaktoro/Thermodynamics/Ideal/ActivityModelIdealSolution.cpp: ActivityModelIdealSolution", "Reaktoro/Thermodynamics/Ideal/ActivityModelIdealGas.cpp: ActivityModelIdealGas", "Reaktoro/Thermodynamics/Ideal/ActivityModelIdealAqueous.cpp: ActivityModelIdealAqueous", "Reaktoro/Core/ChemicalProps.cpp: enthalpy, volume"]}
{"id": "C114", "title": "If the given matter and restrictions allow some amounts of the species, there is an equilibrium state", "statement": "A calculation can only succeed if there is something to find. For a closed system whose species are made of elements, whose standard properties can be computed and whose activity models are continuous in the composition: if the given amounts of all species are at least epsilon and the restrictions allow them, or more generally if any amounts meet the balances and the bounds, then an equilibrium state exists. This holds also for phases that may split. If the phases meet Gibbs' criterion of stability, the equilibrium state is the only one, and it has the least energy of all amounts allowed. The ideal models, the model of Redlich and Kister, and the models of Debye and H\u00fcckel and of Helgeson, Kirkham and Flowers, with or without the models for dissolved gases, are continuous.", "quantifier": "all systems, amounts, temperatures, pressures, restrictions, standard models and continuous activity models", "why_tests_cant": "It says that a solution exists for all problems of a kind; a test sees at most that the optimiser finds one for a few, and cannot tell a failing optimiser from a problem that has no solution.", "anchors": ["Reaktoro/Equilibrium/EquilibriumSolver.cpp: EquilibriumSolver::solve, updateOptProblem", "Reaktoro/Equilibrium/EquilibriumSetup.cpp: evalObjectiveGradX, assembleLowerBoundsVector, assembleMatrixAex, assembleVectorBe", "Reaktoro/Equilibrium/EquilibriumRestrictions.cpp", "Reaktoro/Equilibrium/EquilibriumOptions.hpp: epsilon", "Reaktoro/Thermodynamics/Ideal/ActivityModelIdealAqueous.cpp: ActivityModelIdealAqueous", "Reaktoro/Thermodynamics/Solids/ActivityModelRedlichKister.cpp: ActivityModelRedlichKister", "Reaktoro/Thermodynamics/Aqueous/ActivityModelDebyeHuckel.cpp: ActivityModelDebyeHuckel", "Reaktoro/Thermodynamics/Aqueous/ActivityModelHKF.cpp: ActivityModelHKF"]}
{"id": "C115", "title": "Parts of a system in equilibrium, and phases that are added to it", "statement": "A part of a system in equilibrium is in equilibrium for the matter that the rest leaves to it. Two systems in equilibrium at the same temperature and pressure, with the same chemical potentials of the elements, are in equilibrium when put together. If they share no element, they are in equilibrium together exactly if each of them is by itself, so what is calculated for one does not depend on the other. In equilibrium no pure phase is supersaturated, and one that is present is saturated. A pure phase that is not supersaturated can be added to a system in equilibrium without a change of the other phases; one that is supersaturated grows, if the phases meet Gibbs' criterion of stability. (Saturation is meant up to the barrier term of the calculation.)", "quantifier": "all systems, splits into parts, activity models, temperatures, pressures, amounts, restrictions, options and reactions that form the phase", "why_tests_cant": "These are relations between the results of two different calculations, for all systems and all ways to divide them; a test compares a few pairs, up to a tolerance.", "anchors": ["Reaktoro/Equilibrium/EquilibriumSetup.cpp: evalObjectiveGradX, assembleMatrixAex, assembleVectorBe, assembleLowerBoundsVector", "Reaktoro/Equilibrium/EquilibriumSolver.cpp: EquilibriumSolver::solve, updateOptProblem", "Reaktoro/Core/ChemicalProps.cpp: ChemicalProps::update", "Reaktoro/Equilibrium/EquilibriumOptions.hpp: epsilon, logarithm_barrier_factor"]}
{"id": "C116", "title": "The components in which matter is counted do not matter", "statement": "The equilibrium states of a problem do not depend on the order in which the elements of the system are listed (elements with equal molar masses can be in either order), nor on the components in which the amounts of matter are given: any set of balances from which the others follow gives the same states with the same properties. A balance that follows from the others, such as that of charge when no species is charged, may be left out if its amount follows from theirs; with any other amount no state meets the balances.", "quantifier": "all problems, activity models, sets of balances and orders of the elements", "why_tests_cant": "It compares the results for all ways to write the same balances; a test tries one way, and the order of elements with equal molar mass is not even fixed by the program.", "anchors": ["Reaktoro/Core/ChemicalSystem.cpp: detail::collectElements, detail::formulaMatrix", "Reaktoro/Equilibrium/EquilibriumSetup.cpp: assembleMatrixAex, assembleVectorBe", "Reaktoro/Equilibrium/EquilibriumSolver.cpp: EquilibriumSolver::solve"]}
{"id": "C117", "title": "The reported sensitivities are the derivatives of the equilibrium state", "statement": "After an equilibrium calculation with sensitivities, the reported derivatives are those of the equilibrium state: for inputs and amounts of components near the given ones there is one equilibrium near the computed one, and the derivatives of its amounts of species, titrants, control variables and properties with respect to the inputs and the amounts of components are the reported ones. This holds for all specifications, if the inputs are numbers given by the user, the models have continuous derivatives at the state, every species is free or kept at a bound by a force, and the equations for the derivatives have one solution; at given temperature and pressure, systems of ideal phases with independent balances meet the last condition.", "quantifier": "all specifications, chemical models that are smooth at the state, equilibrium states, inputs, amounts of components and earlier calculations", "why_tests_cant": "It is about the limit of differences between equilibrium states for all nearby conditions; a test compares one difference quotient with one reported number.", "anchors": ["Reaktoro/Equilibrium/EquilibriumSolver.cpp: updateOptProblem, updateEquilibriumSensitivity", "Reaktoro/Equilibrium/EquilibriumSetup.cpp: evalObjectiveHessianX, evalObjectiveHessianP, evalObjectiveHessianW, evalEquationConstraintsGradX, evalEquationConstraintsGradP, evalEquationConstraintsGradW, assembleMatrixAex, assembleMatrixAep", "Reaktoro/Equilibrium/EquilibriumSensitivity.cpp", "Reaktoro/Equilibrium/EquilibriumProps.cpp: update"]}
{"id": "C118", "title": "The amounts and critical properties taken from PHREEQC are those of PHREEQC", "statement": "After a PHREEQC script was executed, the amounts of the species are those that PHREEQC computed: of aqueous species their own, of gases those in the gas phase, of minerals those of the equilibrium phases, in the order of the species; this holds after any number of scripts and changes of the amounts. Amounts set by the user are in PHREEQC afterwards. The critical properties of the gases given in the script or database are kept, missing ones are completed once from a table with pressures converted to atm, and those of other phases are untouched. The table has the same numbers as the registry of critical properties.", "quantifier": "all contents of PHREEQC after a script, lists of species, amounts, and sequences of scripts and changes", "why_tests_cant": "It is about every content of PHREEQC and every sequence of calls on the same object; a test runs one script on a new object.", "anchors": ["Reaktoro/Extensions/Phreeqc/Phreeqc.cpp: critical_properties, initializeCriticalPropertiesGaseousSpecies, initializeChemicalState, setSpeciesAmounts, execute, set", "Reaktoro/Extensions/Phreeqc/PhreeqcUtils.cpp: speciesAmounts", "Reaktoro/Singletons/CriticalProps.cpp"]}
{"id": "C119", "title": "Databases are values, and the species taken from them stay usable", "statement": "A database made from a PHREEQC file, a text or an embedded name has the species that PHREEQC gives; loading again gives what a new object would get, and a call that throws changes nothing. Copies, chemical systems and lists of species are independent: an operation on one variable changes no other. Whatever is copied, loaded, cleared or destroyed, the properties of species reached through an existing database or chemical system can be evaluated, without reading data that have been deleted.", "quantifier": "all programs, as sequences of constructions, copies, assignments, loads, changes, destructions and uses, and all files and behaviours of PHREEQC", "why_tests_cant": "It is about every order of copies, loads and destructions; a test uses one database that lives to the end, and reading deleted data need not be seen.", "anchors": ["Reaktoro/Extensions/Phreeqc/PhreeqcDatabase.cpp: PhreeqcDatabaseHelper, withName, fromFile, load, contents", "Reaktoro/Extensions/Phreeqc/PhreeqcThermo.cpp: standardThermoPropsModel volume models", "Reaktoro/Extensions/Phreeqc/PhreeqcUtils.cpp: load", "Reaktoro/Core/Database.cpp: Database, operator=, clear, attachData, addSpecies", "Reaktoro/Core/ChemicalSystem.cpp: Impl"]}
{"id": "C120", "title": "Comparisons of elements, species, phases, reactions, formulas and equations are consistent", "statement": "Of two elements, species, phases, reactions, formulas or catalysts exactly one is less than the other or they are equal; less is transitive and equality an equivalence; equal objects have the same hash. So lists can be sorted and their duplicates removed: the result has every item once. Two formulas are equivalent exactly if they have the same elements with the same coefficients, in any order, and the same charge. Equality of reaction equations is an equivalence, and consistent with their order.", "quantifier": "all objects of these classes, all lists of them, and all texts of formulas", "why_tests_cant": "It is about every pair and triple of objects, and about every way in which a sort may order items that it cannot distinguish.", "anchors": ["Reaktoro/Core/Element.cpp: operator<, operator==", "Reaktoro/Core/Element.hpp: std::hash", "Reaktoro/Core/Species.cpp: operator<, operator==", "Reaktoro/Core/Species.hpp: std::hash", "Reaktoro/Core/Phase.cpp: operator<, operator==", "Reaktoro/Core/Reaction.cpp: operator<, operator==", "Reaktoro/Core/ChemicalFormula.cpp: equivalent, operator<, operator==", "Reaktoro/Core/ReactionEquation.cpp: operator<, operator==", "Reaktoro/Common/Algorithms.hpp: unique, merge, contained, identical"]}
{"id": "C121", "title": "A phase given twice", "statement": "If a phase of a system is given twice (a user does this for solutions that may unmix), the equilibrium of an ideal solution does not change: dividing the amounts of the phase between the two copies, in any ratio, leaves an equilibrium with the same chemical potentials and the same properties of the other phases; and in every equilibrium with both copies they have the same composition, and together are an equilibrium of the system with the phase given once.", "quantifier": "all systems with any phases and titrants, all phase models (joining: those that meet Gibbs' criterion), all amounts and all ratios", "why_tests_cant": "It is about every system, every state of it and every ratio; tests can only look at some systems.", "anchors": ["Reaktoro/Core/ChemicalSystem.cpp: fixDuplicatePhaseNames, fixDuplicateSpeciesNames", "Reaktoro/Core/ChemicalProps.cpp: update", "Reaktoro/Core/ChemicalPropsPhase.hpp: update", "Reaktoro/Equilibrium/EquilibriumSetup.cpp: evalObjectiveGradX", "Reaktoro/Equilibrium/EquilibriumOptions.hpp: epsilon, logarithm_barrier_factor"]}
{"id": "C122", "title": "Core values saved as YAML", "statement": "Aggregate states, formulas, elements, lists of elements and parameters that are saved as YAML nodes are read back as the same objects, and a document is read as an element exactly if it gives a symbol and a non-negative molar mass, in whatever order and with whatever other keys, where a missing name is the symbol.", "quantifier": "all aggregate states, formulas, elements, lists of elements, parameters, and all YAML documents", "why_tests_cant": "It is about every object and every document; tests look at some.", "anchors": ["Reaktoro/Serialization/Core.YAML.cpp: encode, decode of AggregateState, ChemicalFormula, Element, ElementList, Param, Params", "Reaktoro/Common/YAML.hpp: appendIfNotDefault, copyOptionalChildValueTo, copyRequiredChildValueTo", "Reaktoro/Core/Element.cpp: Element(Attribs)"]}
{"id": "C123", "title": "One value of each physical constant", "statement": "Every module has the same gas constant, Faraday constant, reference temperature and pressure, molar mass of water and factor for atmospheres, and the molar mass of water by which molalities are defined is the molar mass of the species H2O, so that results of one module can be used in another.", "quantifier": "all modules, all pressures, and all species that consist of two atoms of hydrogen and one of oxygen", "why_tests_cant": "A test compares numbers to a tolerance within one module; that all modules agree is a statement about all of them.", "anchors": ["Reaktoro/Common/Constants.hpp: universalGasConstant, faradayConstant", "Reaktoro/Thermodynamics/Water/WaterConstants.hpp: waterMolarMass", "Reaktoro/Extensions/Phreeqc/Phreeqc.cpp: pascal_to_atm", "Reaktoro/Extensions/Supcrt/SupcrtModels.cpp: referenceTemperature, referencePressure", "Reaktoro/Singletons/Elements.cpp: default_elements"]}
{"id": "C124", "title": "Derivatives of the standard properties", "statement": "After any calls of update of ThermoProps (or of the properties of a phase), a call update(T, P, wrt(x)) gives every standard property of every species the value of its model at (T, P) and the derivative of its model with respect to x; the caller's variables keep their values and are no longer seeded. The same holds for memoized functions of temperature and pressure.", "quantifier": "all systems, models that follow the chain rule, histories of updates with and without derivatives, temperatures and pressures not both zero, and variables", "why_tests_cant": "Whether derivatives are right depends on the calls before; tests update new objects.", "anchors": ["Reaktoro/Core/ThermoProps.cpp: ThermoProps::update", "Reaktoro/Core/ThermoPropsPhase.hpp: ThermoPropsPhaseBase::update", "Reaktoro/Common/Memoization.hpp: memoizeLast"]}
