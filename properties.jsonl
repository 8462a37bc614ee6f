{"id": "C01", "title": "Named lookup returns the latest live registration", "statement": "For each of the four registries (EFT, Basis, Translator, Matcher): after any sequence of successful constructions, deletions and clear-all calls, indexing the class with a name returns the object most recently constructed under that name if it has not been deleted or cleared since, and raises KeyError otherwise (AttributeError if no object of the class was ever constructed). Operations on one registry never change what another registry returns.", "quantifier": "every finite history of construct / delete / clear-all operations on all four registries, every name", "why_tests_cant": "A unit test runs one history; the claim is about every interleaving of operations, including re-registration of a name and deletion of a name registered twice.", "anchors": ["wcxf/classes.py:NamedInstanceClass", "wcxf/classes.py:NamedInstanceMetaclass", "wcxf/classes.py:EFT", "wcxf/classes.py:Basis", "wcxf/classes.py:Translator", "wcxf/classes.py:Matcher"]}
{"id": "C02", "title": "Listing of known bases and translators mirrors the registry", "statement": "known_bases of an EFT lists exactly the basis names currently registered for that EFT, and known_translators of an EFT or of a basis lists exactly the currently registered translators that belong to / start at / end at it; no name is listed twice and the order is the order of first registration.", "quantifier": "every registry history, every EFT and every basis", "why_tests_cant": "Tests compare one listing after one history; the claim is exactness (no omission, no extra, no duplicate) after every history.", "anchors": ["wcxf/classes.py:EFT.known_bases", "wcxf/classes.py:EFT.known_translators", "wcxf/classes.py:Basis.known_translators"]}
{"id": "C03", "title": "A rejected basis definition leaves no trace", "statement": "If constructing or loading a basis raises (because the parent basis is not registered), then every later lookup, listing and validation behaves as if the construction had never been attempted.", "quantifier": "every prior state, every rejected construction, every later observation", "why_tests_cant": "Tests only assert that ValueError is raised; whether the half-built object stays observable afterwards needs a statement over every later observation.", "anchors": ["wcxf/classes.py:Basis.__init__", "wcxf/classes.py:NamedInstanceClass.__init__"]}
{"id": "C04", "title": "Child basis = parent's sectors overridden by its own", "statement": "A basis loaded with a `parent` exposes exactly the sectors of the parent at that moment, where every sector that the child file defines replaces the parent's sector of the same name; an unknown parent raises ValueError.", "quantifier": "every parent, every child, every sector name", "why_tests_cant": "The test uses one parent and one empty child; override and extension for every sector content is a universal claim.", "anchors": ["wcxf/classes.py:Basis.__init__"]}
{"id": "C05", "title": "Defining a child basis does not change its parent", "statement": "Constructing a child basis never changes the sectors, the coefficient list or the validation result of the parent basis nor those of any sibling derived from the same parent.", "quantifier": "every parent, every sequence of child definitions, every observation on parent and siblings", "why_tests_cant": "A non-interference claim over all histories; the only test has an empty child, for which the claim cannot fail.", "anchors": ["wcxf/classes.py:Basis.__init__", "wcxf/classes.py:Basis.all_wcs"]}
{"id": "C06", "title": "The coefficient list of a basis reflects its sectors", "statement": "At every moment, all_wcs lists exactly the coefficient names contained in the sectors of the basis, in sector order.", "quantifier": "every history of registrations and of reads of all_wcs", "why_tests_cant": "all_wcs is cached on first access; that the cache is never stale is a claim about all interleavings of reads and later definitions.", "anchors": ["wcxf/classes.py:Basis.all_wcs", "wcxf/classes.py:Basis.__init__"]}
{"id": "C07", "title": "Package import does not depend on directory order", "statement": "The registered EFTs and bases (names, sectors, coefficient lists) after import of the package are the same for every order in which the file system lists the definition files, as long as no child basis has another child basis as parent.", "quantifier": "every permutation of the listed EFT, basis and child-basis files, every file contents", "why_tests_cant": "Tests see the one order that the test machine's file system produces.", "anchors": ["wcxf/__init__.py", "wcxf/classes.py:Basis.__init__"]}
{"id": "C08", "title": "Basis validation accepts exactly the consistent bases", "statement": "Validation of a basis succeeds if and only if its EFT is registered, every sector name of the basis is a sector of that EFT, no coefficient name appears twice across sectors, and the collected LaTeX compiles; each violated condition raises ValueError, and the conditions are checked in this order.", "quantifier": "every registry state, every basis, every outcome of the LaTeX run", "why_tests_cant": "Tests show single accept / reject examples; completeness and soundness of the decision is universal.", "anchors": ["wcxf/classes.py:Basis.validate"]}
{"id": "C09", "title": "Coefficient-file validation accepts exactly the known names", "statement": "Validation of a Wilson coefficient object succeeds if and only if its EFT and its (EFT, basis) pair are registered and every coefficient name in it belongs to that basis; a missing EFT or basis raises ValueError, an unknown name raises AssertionError.", "quantifier": "every registry state, every Wilson coefficient object", "why_tests_cant": "Soundness and completeness of a decision procedure over unbounded inputs.", "anchors": ["wcxf/classes.py:WC.validate"]}
{"id": "C10", "title": "A validated coefficient file can be evaluated", "statement": "If validation of a Wilson coefficient object succeeds then reading its numeric dictionary does not raise.", "quantifier": "every registry state, every Wilson coefficient object that passes validation", "why_tests_cant": "Requires ranging over every accepted file, including malformed values under valid names.", "anchors": ["wcxf/classes.py:WC.validate", "wcxf/classes.py:WC.dict", "wcxf/classes.py:WC._to_number"]}
{"id": "C11", "title": "Numbers survive the file representation", "statement": "Turning a dictionary of real or complex numbers into file values (plain numbers or Re/Im mappings) and reading them back gives exactly the same keys in the same order and the same numbers; real numbers are written as plain numbers, and only those.", "quantifier": "every dictionary of complex numbers", "why_tests_cant": "Tests use two or three numbers; equality for every number is a round-trip theorem.", "anchors": ["wcxf/classes.py:WC.dict2values", "wcxf/classes.py:WC._to_complex_dict", "wcxf/classes.py:WC._to_number", "wcxf/classes.py:WC.dict"]}
{"id": "C12", "title": "The numeric dictionary is stable and reflects the values", "statement": "The first read of the numeric dictionary has one entry per value entry, with the same keys in the same order; every later read returns the same result as a conversion of the current values.", "quantifier": "every history of reads and value modifications on a Wilson coefficient object", "why_tests_cant": "The result is cached: whether it can be stale depends on the interleaving of reads and modifications.", "anchors": ["wcxf/classes.py:WC.dict"]}
{"id": "C13", "title": "Translation contract", "statement": "Translating a Wilson coefficient object to a basis raises ValueError exactly when no translator is registered for (EFT, basis, target); otherwise the result has the same EFT and scale, the requested basis, no zero coefficient, and its numeric dictionary is exactly the translator's output without the zero entries.", "quantifier": "every registry state, every translator function, every input object, every parameter argument", "why_tests_cant": "The translator is an arbitrary registered function; tests instantiate it with a handful of functions.", "anchors": ["wcxf/classes.py:WC.translate", "wcxf/classes.py:Translator.translate", "wcxf/classes.py:WC.dict2values"]}
{"id": "C14", "title": "Matching contract", "statement": "Matching a Wilson coefficient object to (EFT', basis') raises ValueError exactly when no matcher is registered for the pair; otherwise the result has EFT', basis', the same scale, no zero coefficient, and its numeric dictionary is exactly the matcher's output without the zero entries.", "quantifier": "every registry state, every matcher function, every input object", "why_tests_cant": "As for translation: the statement ranges over all functions and all inputs.", "anchors": ["wcxf/classes.py:WC.match", "wcxf/classes.py:Matcher.match"]}
{"id": "C15", "title": "Dump then load preserves a Wilson coefficient file", "statement": "Writing a Wilson coefficient object to JSON or YAML and loading the text gives an object with the same EFT, basis, scale, values and extra public attributes (names and contents).", "quantifier": "every Wilson coefficient object whose public attributes are file data, both formats", "why_tests_cant": "Round trip over all objects including arbitrary extra metadata.", "anchors": ["wcxf/classes.py:WCxf.dump", "wcxf/classes.py:WCxf.load", "wcxf/classes.py:WC.__init__"]}
{"id": "C16", "title": "Private attributes never reach a file and private keys in a file cannot corrupt an object", "statement": "The written document contains exactly the attributes whose name does not start with an underscore, so reading a cached property before dumping never changes the document; conversely, loading a document with arbitrary extra keys gives an object whose numeric dictionary is computed from its values.", "quantifier": "every object, every interleaving of reads before the dump, every extra key in a loaded document", "why_tests_cant": "Needs all interleavings of property reads with dumps and all possible extra keys.", "anchors": ["wcxf/classes.py:WCxf.dump", "wcxf/classes.py:WC.__init__", "wcxf/classes.py:WC.dict"]}
{"id": "C17", "title": "Unknown output formats are refused without output", "statement": "Dumping with a format name other than json or yaml (in any letter case) raises ValueError and writes nothing; with json or yaml in any letter case it writes the document.", "quantifier": "every object and every format string", "why_tests_cant": "All strings.", "anchors": ["wcxf/classes.py:WCxf.dump"]}
{"id": "C18", "title": "Format detection on load", "statement": "Loading a text uses the JSON reading whenever the text is JSON, and the YAML reading otherwise; hence a JSON document and a YAML document with the same contents load to equal objects, and a text that is neither raises.", "quantifier": "every text, every pair of equivalent documents", "why_tests_cant": "Universal over texts, relies on the decision order.", "anchors": ["wcxf/classes.py:_load_yaml_json", "wcxf/classes.py:WCxf.load"]}
{"id": "C19", "title": "Dump then load preserves a basis, with or without parent", "statement": "Dumping a registered basis and loading the document again, while its parent (if any) is still registered, gives a basis with the same EFT, name, parent and the same sectors.", "quantifier": "every registry state, every basis", "why_tests_cant": "The document of a child basis contains the merged sectors and the parent name; that merging again is harmless must hold for all contents.", "anchors": ["wcxf/classes.py:WCxf.dump", "wcxf/classes.py:WCxf.load", "wcxf/classes.py:Basis.__init__"]}
{"id": "C20", "title": "EOS parameter file = SM value + new-physics value", "statement": "The EOS conversion returns exactly the keys of the SM file in the same order; for each, central, min and max are all equal to the SM central value plus the real (for plain and Re{..} names) or imaginary (for Im{..} names) part of the coefficient of that name, and equal to the SM value if the coefficient is absent.", "quantifier": "every SM table and every Wilson coefficient dictionary", "why_tests_cant": "Universal over names and values, including Re/Im name rewriting.", "anchors": ["wcxf/converters/eos.py:wcxf2eos", "wcxf/converters/eos.py:get_eos_np"]}
{"id": "C21", "title": "EOS conversion refuses lepton-non-universal charged currents", "statement": "For a real-part or imaginary-part parameter Re{..}/Im{..} of a charged-current coefficient (name containing lnu) that is not itself in the dictionary the EOS conversion raises ValueError if and only if the electron and muon coefficients differ (absent = 0), and otherwise uses their common value.", "quantifier": "every Wilson coefficient dictionary, every name", "why_tests_cant": "If-and-only-if over all dictionaries.", "anchors": ["wcxf/converters/eos.py:get_eos_np"]}
{"id": "C22", "title": "Failed EOS export leaves the previous parameter file intact", "statement": "If the command line EOS export stops with an error (unreadable or invalid input, missing SM file, non-universal coefficients), an existing output file keeps its contents.", "quantifier": "every previous file content, every kind of failure, every crash point of the command", "why_tests_cant": "Needs all crash points and all failing inputs.", "anchors": ["wcxf/cli.py:eos"]}
{"id": "C23", "title": "SMEFTsim export touches the output only for valid input, and completes", "statement": "The SMEFTsim export never creates or truncates the output file unless the input file is a valid Wilson coefficient file, and once the output file is opened the export finishes with a complete parameter card.", "quantifier": "every input file, every previous output content, every crash point", "why_tests_cant": "Needs all inputs, including those with omitted (zero) coefficients.", "anchors": ["wcxf/cli.py:smeftsim", "wcxf/converters/smeftsim.py:smeftsim_card_fill"]}
{"id": "C24", "title": "Exit status reports failure", "statement": "The wcxf command exits with status 0 only if the requested operation was carried out: an unknown TYPE or FORMAT, unparsable input, or an internal error gives a non-zero status.", "quantifier": "every command line and every input file", "why_tests_cant": "Ranges over all arguments and inputs.", "anchors": ["wcxf/cli.py:wcxf_cli", "wcxf/cli.py:convert", "wcxf/cli.py:validate", "wcxf/converters/yamljson.py"]}
{"id": "C25", "title": "LaTeX check cleans up and always answers", "statement": "The LaTeX check used by basis validation returns a result with a success flag for every behaviour of the LaTeX executable (missing, failing, not writing a log) and leaves no temporary directory behind.", "quantifier": "every behaviour of the executable and every log content", "why_tests_cant": "Tests see the LaTeX installation (or its absence) of one machine.", "anchors": ["wcxf/classes.py:_testtex"]}
{"id": "C26", "title": "LaTeX error excerpt is the first error paragraph", "statement": "If the log contains an 'Undefined control sequence' or 'Emergency stop' line the reported log is exactly the maximal block of lines starting at the first such line and ending before the next blank line; otherwise it is empty. The extraction terminates on every log.", "quantifier": "every log file (list of lines)", "why_tests_cant": "Universal over logs; termination of the while loop.", "anchors": ["wcxf/classes.py:_testtex"]}
{"id": "C27", "title": "Running parameters reject unphysical requests", "statement": "alpha_s, m_b, m_c and m_s return a value only for a positive scale and an integer number of flavours for which the running is implemented, and raise ValueError otherwise.", "quantifier": "every scale, every number of flavours (any numeric type), every initial value", "why_tests_cant": "All numeric arguments, including floats, out-of-range integers and the shortcut branches.", "anchors": ["wcxf/util/qcd.py:_sane", "wcxf/util/qcd.py:alpha_s", "wcxf/util/qcd.py:m_b", "wcxf/util/qcd.py:m_c", "wcxf/util/qcd.py:m_s"]}
{"id": "C28", "title": "Memoised running is transparent", "statement": "The answer of a running-parameter function never depends on which calls were made before: every call returns (or raises) what the uncached function returns (or raises) on the same arguments, for every call history and regardless of evictions.", "quantifier": "every finite call history, every cache state", "why_tests_cant": "Cache bugs depend on histories (hits on equal-but-different keys, evictions); tests run one history.", "anchors": ["wcxf/util/qcd.py:alpha_s", "wcxf/util/qcd.py:m_b", "wcxf/util/qcd.py:m_c", "wcxf/util/qcd.py:m_s"]}
{"id": "C29", "title": "Symmetrisation produces tensors with the operator symmetries", "statement": "For every operator class (Hermitian matrix, symmetric matrix, two identical currents, two independent currents, ee, qque, qqql) the completed tensor satisfies all index-exchange and Hermiticity relations of that class, whatever the input tensor.", "quantifier": "every complex 3x3 or 3x3x3x3 input tensor", "why_tests_cant": "The functions are hundreds of single-entry assignments; a random-tensor test samples, a proof covers all tensors and would expose one wrong index.", "anchors": ["wcxf/util/smeftutil.py:symmetrize_2", "wcxf/util/smeftutil.py:symmetrize_4", "wcxf/util/smeftutil.py:symmetrize_5", "wcxf/util/smeftutil.py:symmetrize_6", "wcxf/util/smeftutil.py:symmetrize_7", "wcxf/util/smeftutil.py:symmetrize_8", "wcxf/util/smeftutil.py:symmetrize_9"]}
{"id": "C30", "title": "Symmetrisation keeps tensors that already have the symmetries", "statement": "A tensor that already satisfies the relations of its class is returned unchanged; in particular symmetrisation is idempotent.", "quantifier": "every tensor satisfying the relations", "why_tests_cant": "Universal over a continuum of tensors.", "anchors": ["wcxf/util/smeftutil.py:symmetrize"]}
{"id": "C31", "title": "Only non-redundant entries matter", "statement": "The completed tensor depends only on the non-redundant entries: a fixed list of index combinations (one per orbit) such that two input tensors that agree on them give the same result.", "quantifier": "every pair of tensors agreeing on the non-redundant entries", "why_tests_cant": "Universal; a single read of a redundant entry would break it for inputs a test does not try.", "anchors": ["wcxf/util/smeftutil.py:symmetrize"]}
{"id": "C32", "title": "Flavour rotations preserve the operator symmetries", "statement": "A unitary flavour rotation maps tensors satisfying the symmetry relations of every operator class to tensors satisfying the same relations.", "quantifier": "every unitary (for the relations used: every) rotation matrices, every symmetric tensor", "why_tests_cant": "Universal over matrices and tensors.", "anchors": ["wcxf/util/smeftutil.py:flavor_rotation"]}
{"id": "C33", "title": "Flavour rotations compose and invert", "statement": "Rotating with matrices U and then with matrices W equals rotating once with the products UW, for every operator; hence rotating with U and then with its inverse restores every coefficient.", "quantifier": "every tuple of matrices, every set of coefficient tensors", "why_tests_cant": "Each einsum string is separate code; one wrong subscript breaks the law for some operator only.", "anchors": ["wcxf/util/smeftutil.py:flavor_rotation"]}
{"id": "C34", "title": "Warsaw -> Warsaw up -> Warsaw is the identity", "statement": "Translating a coefficient set from the Warsaw basis to the Warsaw up basis and back returns the original coefficients (absent = zero), provided the CKM matrix is unitary, coefficients that Hermiticity forces to be real have real values, the Warsaw basis definition lists only independent entries and the Warsaw up definition lists all of them.", "quantifier": "every Warsaw coefficient set, every CKM matrix, every basis listing of representatives", "why_tests_cant": "Round trip through rotation, redundancy removal and completion for all inputs.", "anchors": ["wcxf/translators/smeft.py:warsaw_to_warsaw_up", "wcxf/translators/smeft.py:warsaw_up_to_warsaw", "wcxf/translators/smeft.py:wcxf2arrays", "wcxf/translators/smeft.py:arrays2wcxf", "wcxf/util/smeftutil.py:symmetrize", "wcxf/util/smeftutil.py:flavor_rotation"]}
{"id": "C35", "title": "Array form and flat form are inverse to each other", "statement": "Converting a flat coefficient dictionary (names with index suffix) to arrays and back keeps every coefficient's value and only adds zeros; converting arrays to flat form and back is the identity; names outside the list of operators and Standard Model parameters raise KeyError.", "quantifier": "every flat dictionary over the operator names, every array dictionary", "why_tests_cant": "Universal over dictionaries.", "anchors": ["wcxf/translators/smeft.py:arrays2wcxf", "wcxf/translators/smeft.py:wcxf2arrays", "wcxf/translators/smeft.py:smeft_fromarray", "wcxf/translators/smeft.py:smeft_toarray"]}
{"id": "C36", "title": "Warsaw mass translation touches only what it must", "statement": "Translating from Warsaw to Warsaw mass leaves every coefficient other than the up-type Yukawa-like, up-type dipole and dimension-5 operators exactly as given; each of the former is multiplied from the left by the CKM matrix, and the dimension-5 matrix becomes diagonal.", "quantifier": "every coefficient set", "why_tests_cant": "Frame condition over all coefficients plus a matrix identity for all inputs.", "anchors": ["wcxf/translators/smeft.py:warsaw_to_warsawmass"]}
{"id": "C37", "title": "User parameters are honoured", "statement": "Whenever a translation or matching accepts a `parameters` argument, every parameter it documents is taken from that argument if present and from the defaults otherwise.", "quantifier": "every translator and matcher, every partial parameter dictionary", "why_tests_cant": "Ranges over all parameter dictionaries and all registered functions.", "anchors": ["wcxf/translators/__init__.py", "wcxf/translators/smeft.py", "wcxf/translators/wet.py:get_parameters", "wcxf/matchers/smeft.py:match_all"]}
{"id": "C38", "title": "Default parameters are never modified", "statement": "No sequence of translations and matchings, with or without user parameters, changes the default parameters used by later calls.", "quantifier": "every call history, every parameter argument", "why_tests_cant": "Non-interference across histories.", "anchors": ["wcxf/parameters.py", "wcxf/translators/wet.py:get_parameters", "wcxf/translators/smeft.py", "wcxf/matchers/smeft.py:match_all", "wcxf/matchers/smeft.py:g2b"]}
{"id": "C39", "title": "JMS completion fills every redundant entry", "statement": "When a JMS coefficient set is expanded to full tensors, every entry is determined (no not-a-number remains) if the basis lists at least one member of every orbit under the Hermiticity and current-exchange relations; listed coefficients keep their value, absent ones count as zero, and the tensors satisfy the relations if the basis lists exactly one member per orbit.", "quantifier": "every JMS coefficient set, every basis listing", "why_tests_cant": "Universal over inputs and basis listings; not-a-number leakage only shows for specific entries.", "anchors": ["wcxf/translators/wet.py:_JMS_to_array", "wcxf/translators/wet.py:_scalar2array", "wcxf/translators/wet.py:_symm_herm", "wcxf/translators/wet.py:_symm_current"]}
{"id": "C40", "title": "JMS -> flavio equals JMS -> Bern -> flavio", "statement": "For every JMS coefficient set, translating directly to the flavio basis gives the same coefficients as translating to the Bern basis and then to the flavio basis (same scale and parameters).", "quantifier": "every JMS coefficient set, scale and parameter set with non-vanishing G_F, alpha_e, alpha_s, m_b and CKM elements", "why_tests_cant": "Commuting diagram over hundreds of coefficients and all inputs.", "anchors": ["wcxf/translators/wet.py:JMS_to_flavio", "wcxf/translators/wet.py:JMS_to_Bern", "wcxf/translators/wet.py:Bern_to_flavio"]}
{"id": "C41", "title": "flavio -> Bern -> flavio is the identity", "statement": "For every coefficient set in the flavio basis, translating to Bern and back returns the same coefficients.", "quantifier": "every flavio coefficient set, every admissible parameter set", "why_tests_cant": "Round trip over all coefficients of the basis, including the strange-down sector.", "anchors": ["wcxf/translators/wet.py:flavio_to_Bern", "wcxf/translators/wet.py:Bern_to_flavio"]}
{"id": "C42", "title": "Bern -> flavio -> Bern keeps the operators known to flavio", "statement": "Translating from Bern to flavio and back returns exactly the Bern coefficients of the Delta F=2, charged-current, dipole and b->d,s neutrino / vector / scalar operators; it sets to zero the tensor parts and the four-quark operators, which flavio does not have.", "quantifier": "every Bern coefficient set", "why_tests_cant": "Exact description of what is lost, over all inputs.", "anchors": ["wcxf/translators/wet.py:Bern_to_flavio", "wcxf/translators/wet.py:flavio_to_Bern"]}
{"id": "C43", "title": "Translations are linear", "statement": "Every WET translation commutes with addition and with real rescaling of the coefficient sets (absent = 0).", "quantifier": "every pair of coefficient sets, every real factor", "why_tests_cant": "Superposition over all inputs; a stray square or constant would break it.", "anchors": ["wcxf/translators/wet.py"]}
{"id": "C44", "title": "Absent coefficients count as zero", "statement": "Adding coefficients with value zero to the input of a WET translation, or removing them, does not change the output; the zero coefficient set translates to the empty set.", "quantifier": "every coefficient set, every set of zero entries", "why_tests_cant": "Universal over inputs.", "anchors": ["wcxf/translators/wet.py:_JMS_to_array", "wcxf/translators/wet.py:Bern_to_flavio", "wcxf/translators/wet.py:flavio_to_Bern"]}
{"id": "C45", "title": "Translations are total on complete bases", "statement": "If the source basis definition contains the coefficient names of the WCxf standard that a WET translator reads, the translator returns a value for every (also empty) input; no KeyError can occur.", "quantifier": "every input dictionary", "why_tests_cant": "Every string key built by concatenation must match; tests only show one path.", "anchors": ["wcxf/translators/wet.py"]}
{"id": "C46", "title": "FormFlavor s->d neutrino coefficient", "statement": "The FormFlavor coefficients CVLL_sdnn and CVRL_sdnn are the flavour averages of the JMS neutrino-down vector coefficients with strange-down indices.", "quantifier": "every JMS coefficient set", "why_tests_cant": "Requires the value as a function of all inputs; the final value is decided by update order and index arithmetic.", "anchors": ["wcxf/translators/wet.py:JMS_to_FormFlavor_lep", "wcxf/translators/wet.py:JMS_to_FormFlavor"]}
{"id": "C47", "title": "Left/right mirror symmetry of FormFlavor dipoles", "statement": "In the FormFlavor output the left-handed dipole coefficient of a flavour pair is the complex conjugate of the right-handed one of the opposite pair with the same normalisation (1/e for photon, 1/g_s for gluon dipoles) for quarks and leptons alike.", "quantifier": "every JMS coefficient set, every flavour pair", "why_tests_cant": "A wrong normalisation constant is invisible unless values are compared for all couplings.", "anchors": ["wcxf/translators/wet.py:JMS_to_FormFlavor_chrom"]}
{"id": "C48", "title": "FlavorKit -> JMS -> FlavorKit is the identity", "statement": "Translating any coefficient set in the FlavorKit basis to JMS and back returns the same coefficients; names outside the basis raise ValueError.", "quantifier": "every FlavorKit coefficient set, every parameter set with non-zero alpha_e and lepton masses", "why_tests_cant": "Depends on injectivity of two data tables and on every coefficient value.", "anchors": ["wcxf/translators/wet.py:FlavorKit_to_JMS", "wcxf/translators/wet.py:JMS_to_FlavorKit", "wcxf/data/flavorkit_jms.json", "wcxf/data/flavorkit_jms_conj.json"]}
{"id": "C49", "title": "The Standard Model matches to nothing", "statement": "Matching an empty or all-zero SMEFT coefficient set gives an empty WET coefficient set, for all parameters.", "quantifier": "every parameter set, every all-zero input", "why_tests_cant": "The SM contribution of about one hundred formulas must cancel exactly for every parameter value.", "anchors": ["wcxf/matchers/smeft.py:match_all", "wcxf/matchers/smeft.py:match_all_array"]}
{"id": "C50", "title": "Matched coefficients belong to the WET JMS basis", "statement": "Every coefficient produced by SMEFT-to-WET matching is a coefficient of the registered WET JMS basis, so the result validates.", "quantifier": "every SMEFT coefficient set, every JMS basis listing", "why_tests_cant": "Universal over inputs.", "anchors": ["wcxf/matchers/smeft.py:match_all"]}
{"id": "C51", "title": "Matching from Warsaw = translate to Warsaw up, then match", "statement": "Matching a Warsaw coefficient set to JMS gives the same result as translating it to Warsaw up and matching that, with the same parameters in both steps.", "quantifier": "every Warsaw coefficient set and parameter set", "why_tests_cant": "Commuting diagram over all inputs and parameters.", "anchors": ["wcxf/matchers/__init__.py:warsaw_to_jms", "wcxf/translators/__init__.py:warsaw_to_warsaw_up"]}
{"id": "C52", "title": "Matching to flavio/EOS/Bern = matching to JMS, then translate", "statement": "Matching Warsaw to flavio, EOS or Bern equals matching to JMS and then translating, with the same scale and parameters.", "quantifier": "every Warsaw coefficient set and parameter set", "why_tests_cant": "The intermediate object drops zeros and converts numbers; equality for all inputs is needed.", "anchors": ["wcxf/matchers/__init__.py"]}
{"id": "C53", "title": "CKM elements cancel for down-quark operators", "statement": "Matching from the Warsaw basis (down-quark mass basis): WET coefficients whose quark fields are only down-type do not depend on the CKM matrix and equal the tree-level formula applied to the Warsaw coefficients directly, for every unitary CKM matrix.", "quantifier": "every Warsaw coefficient set, every unitary CKM matrix, every operator with only down-type quarks", "why_tests_cant": "Basis covariance is an algebraic identity over all inputs.", "anchors": ["wcxf/matchers/smeft.py", "wcxf/translators/wet.py:rotate_down", "wcxf/translators/smeft.py:warsaw_to_warsaw_up"]}
{"id": "C54", "title": "Flavour-threshold matching is a restriction", "statement": "Matching WET to WET-4, WET-4 to WET-3 and WET-3 to WET-2 keeps exactly the coefficients of the target basis with unchanged values; the result validates, matching is idempotent, and a chain of matchings keeps exactly the coefficients in all the bases passed.", "quantifier": "every coefficient set, every basis listing", "why_tests_cant": "Universal over inputs and basis contents.", "anchors": ["wcxf/matchers/__init__.py"]}
{"id": "C55", "title": "SMEFTsim card entries are complete and correctly addressed", "statement": "In the SMEFTsim parameter card every coefficient entry of a flavour block carries the index pair/quadruple of its name, no address occurs twice in a block, every name occurs exactly once per magnitude/phase block, and card filling raises KeyError exactly if a needed coefficient is absent.", "quantifier": "every Wilson coefficient dictionary, both model sets", "why_tests_cant": "Thousands of hand-written rows; a swapped index is visible only for inputs that exercise that row.", "anchors": ["wcxf/converters/smeftsim.py:smeftsim_card_fill"]}
{"id": "C56", "title": "YAML/JSON conversion keeps the data", "statement": "Converting a YAML file to JSON and back to YAML (or JSON to YAML to JSON) gives a document with the same data.", "quantifier": "every document", "why_tests_cant": "Universal over documents.", "anchors": ["wcxf/converters/yamljson.py", "wcxf/classes.py:_yaml_to_json", "wcxf/classes.py:_json_to_yaml"]}
{"id": "C57", "title": "SM table read from the EOS directory", "statement": "The Standard Model table used by the EOS export contains exactly the parameters of those files in the directory whose metadata marks them as WCxf relevant; if several files define a parameter the last listed one wins; the metadata entry never appears; if no parameter is defined twice the table is independent of the listing order.", "quantifier": "every list of parsed parameter files, every listing order", "why_tests_cant": "Universal over file contents and directory orders.", "anchors": ["wcxf/converters/eos.py:get_sm_wcs"]}
{"id": "C58", "title": "Command line tools change nothing but their output file", "statement": "At every moment of a run of wcxf or wcxf2eos, every file other than the one named for output (or the parameter file below the given EOS directory) has its original contents; in particular the input file unless it is named as output.", "quantifier": "every command line, every file system state, every crash point", "why_tests_cant": "Crash points and file-system states cannot be enumerated.", "anchors": ["wcxf/cli.py:wcxf_cli", "wcxf/cli.py:eos"]}
{"id": "C59", "title": "Conversion in place equals conversion to another file", "statement": "Running a wcxf subcommand with the output file equal to the input file leaves in it the text that a run with another output file would have written.", "quantifier": "every subcommand with output option, every file system state", "why_tests_cant": "Depends on the order of opening, reading and writing for every input.", "anchors": ["wcxf/cli.py:wcxf_cli"]}
{"id": "C60", "title": "Flavour rotations follow the field content", "statement": "Rotating SMEFT coefficients acts on every index of a coefficient with the matrix of the field that the index belongs to, complex conjugated for barred fields; purely bosonic coefficients are unchanged; the result contains exactly the Wilson coefficients of the input.", "quantifier": "all coefficient tensors of the right shape, all five matrices (unitary or not)", "why_tests_cant": "About sixty hand-written contractions; a swapped matrix is invisible for any input in which the two matrices agree (e.g. identity), and the inputs are continuous.", "anchors": ["wcxf/util/smeftutil.py:flavor_rotation"]}
{"id": "C61", "title": "Malformed index suffixes are rejected", "statement": "Converting flat coefficients to arrays accepts a name of an indexed operator only if its suffix consists of exactly as many digits as the operator has flavour indices, each 1, 2 or 3; any other suffix raises an error.", "quantifier": "every flat dictionary, every suffix", "why_tests_cant": "Universal over suffix strings; Python's negative indices and partial indexing make the accepted set larger than it looks.", "anchors": ["wcxf/translators/smeft.py:wcxf2arrays"]}
{"id": "C62", "title": "Running parameters follow one trajectory through the thresholds", "statement": "For a running library that is exact for a single threshold, the values of alpha_s, m_b, m_c and m_s at a requested scale and number of flavours are those of one trajectory: start at the scale of the initial value with the strong coupling run from M_Z, run to each quark threshold between (1.3, 4.8, 170 GeV) in turn, match there, and run to the requested scale.", "quantifier": "every scale, every implemented number of flavours, every initial value, every exact running law with invertible matching", "why_tests_cant": "tests compare a few numbers with stored values at fixed scales; a wrong threshold or a coupling of the wrong flavour number changes numbers only slightly", "anchors": ["wcxf/util/qcd.py:alpha_s", "wcxf/util/qcd.py:m_b", "wcxf/util/qcd.py:m_c", "wcxf/util/qcd.py:m_s"]}
{"id": "C63", "title": "JMS -> FlavorKit -> JMS keeps exactly the shared coefficients", "statement": "Translating a JMS coefficient set to FlavorKit and back returns the JMS coefficients that have a FlavorKit counterpart with unchanged values, and nothing else; the intermediate set contains only names of the FlavorKit basis.", "quantifier": "every JMS coefficient set, every parameter set with non-zero alpha_e and lepton masses", "why_tests_cant": "Exact description of what is kept and lost over all inputs; depends on about 900 table rows.", "anchors": ["wcxf/translators/wet.py:JMS_to_FlavorKit", "wcxf/translators/wet.py:FlavorKit_to_JMS", "wcxf/data/flavorkit_jms.json", "wcxf/data/flavorkit_jms_conj.json"]}
{"id": "C64", "title": "FlavorKit coefficients go to the JMS entry with their flavours", "statement": "Every FlavorKit coefficient with tabulated name is translated to the JMS operator of the same fermions, with the flavour indices rearranged in the same way for all entries of an operator, up to the symmetries of the JMS operator: a tensor with these symmetries that agrees with the translation has the FlavorKit coefficient (or, for charged-current operators, its conjugate) at the rearranged indices.", "quantifier": "every FlavorKit coefficient set, every row of the tables", "why_tests_cant": "A swapped index or a row in the wrong table is invisible unless the row is exercised and compared with an independent rule.", "anchors": ["wcxf/translators/wet.py:FlavorKit_to_JMS", "wcxf/data/flavorkit_jms.json", "wcxf/data/flavorkit_jms_conj.json"]}
{"id": "C65", "title": "The CKM rotation acts on every left-handed down-quark index", "statement": "Matching from Warsaw up with CKM matrix V gives the coefficients obtained with a unit CKM matrix, rotated by V on every index that belongs to a left-handed down quark (complex conjugated for barred fields), and on no other index.", "quantifier": "every Warsaw up coefficient set, every CKM matrix, all 96 WET operators", "why_tests_cant": "The rotation is a hand-written list of contractions; a missing one is only seen for non-trivial CKM matrices and exactly that operator.", "anchors": ["wcxf/translators/wet.py:rotate_down", "wcxf/matchers/smeft.py:match_all"]}
{"id": "C66", "title": "The SMEFTsim card determines the coefficients", "statement": "Two Wilson coefficient sets that give the same SMEFTsim parameter card have the same values of all coefficients in the card; in particular the sign of real coefficients is kept.", "quantifier": "every pair of Wilson coefficient dictionaries, every non-zero cutoff, both model sets", "why_tests_cant": "A missing phase or an absolute value in one of 2500 rows loses the sign of one coefficient only.", "anchors": ["wcxf/converters/smeftsim.py:smeftsim_card_fill"]}
{"id": "C67", "title": "All entries of the SMEFTsim card are real numbers", "statement": "Every entry of the SMEFTsim parameter card is a real number, for every way in which the input file may write its coefficients (plain numbers or Re/Im pairs).", "quantifier": "every Wilson coefficient file, both model sets, both input schemes", "why_tests_cant": "Depends on the representation of each of the real coefficients in the input file.", "anchors": ["wcxf/converters/smeftsim.py:smeftsim_card_fill", "wcxf/classes.py:WC._to_number"]}
{"id": "C68", "title": "The input scheme changes only its own parameters in the SMEFTsim card", "statement": "Choosing the W mass instead of alpha as input changes only the entries for alpha and the W mass (including ghosts and Goldstone bosons) in the SMEFTsim parameter card; all other entries are the same, and no entry is lost or duplicated.", "quantifier": "both model sets, every Wilson coefficient dictionary", "why_tests_cant": "The texts are edited by line numbers; a shifted line replaces an unrelated parameter without any error.", "anchors": ["wcxf/converters/smeftsim.py:smeftsim_card_text", "wcxf/converters/smeftsim.py:smeftsim_card_fill", "wcxf/converters/SMEFTsim_param_card_elements.py"]}
{"id": "C69", "title": "JMS to Bern describes the same Lagrangian", "statement": "The coefficients returned by the translation from WET JMS to WET Bern describe the same effective Lagrangian as the JMS coefficients: for every process with fields of the Bern basis, every spin and colour, the antisymmetrised four-fermion vertex (including Fierz identities, colour rearrangement and Hermitian conjugates) is the same, and so are the dipole couplings to photons and gluons.", "quantifier": "every JMS coefficient set with consistent redundant entries, every scale and parameter set with non-zero parameters, every choice of flavour, spin and colour of the fields", "why_tests_cant": "A test compares with tabulated numbers from the same conventions; a wrong Fierz sign or colour factor is consistent with round trips and linearity. There are 134 sectors with up to 20 operators each.", "anchors": ["wcxf/translators/wet.py:JMS_to_Bern", "wcxf/translators/wet.py:_JMS_to_Bern_I", "wcxf/translators/wet.py:_JMS_to_Bern_II", "wcxf/translators/wet.py:_JMS_to_Fierz_III_IV_V", "wcxf/translators/wet.py:_Fierz_to_Bern_III_IV_V", "wcxf/translators/wet.py:JMS_to_Fierz_lep", "wcxf/translators/wet.py:Fierz_to_Bern_lep", "wcxf/translators/wet.py:JMS_to_Fierz_chrom", "wcxf/translators/wet.py:Fierz_to_Bern_chrom"]}
{"id": "C70", "title": "JMS to flavio describes the same Lagrangian", "statement": "The coefficients returned by the translation from WET JMS to WET flavio describe the same effective Lagrangian as the JMS coefficients without the down-quark lepton tensor operators, which flavio lacks: the antisymmetrised four-fermion vertex is the same for every process of the flavio basis, every spin and colour, with flavio's normalisation (1 for Delta F = 2, -4 G_F/sqrt2 V_ij for charged currents, 4 G_F/sqrt2 V_tb V_ts* e^2/16 pi^2 for neutral currents, an extra m_b for scalars), and so are the dipole couplings of b to s and b to d.", "quantifier": "every JMS coefficient set with consistent redundant entries, every scale and parameter set with non-zero parameters, every choice of flavour, spin and colour of the fields", "why_tests_cant": "Normalisation factors with CKM elements, couplings and masses and Fierz rearrangements cancel in round trips; only a comparison of the two Lagrangians sees them.", "anchors": ["wcxf/translators/wet.py:JMS_to_flavio", "wcxf/translators/wet.py:_BernI_to_Flavio_I", "wcxf/translators/wet.py:_BernII_to_Flavio_II", "wcxf/translators/wet.py:Fierz_to_Flavio_lep", "wcxf/translators/wet.py:Fierz_to_Flavio_chrom"]}
{"id": "C71", "title": "JMS to FormFlavor describes the same Lagrangian", "statement": "The coefficients returned by the translation from WET JMS to WET FormFlavor describe the same effective Lagrangian as the JMS coefficients: the antisymmetrised four-fermion vertex of the Delta F = 2 operators of down and up quarks and of the operators with b quarks and muons is the same for every spin and colour, with some fixed normalisation of the tensor operators, and so are the dipole couplings of the quarks and charged leptons.", "quantifier": "every JMS coefficient set with consistent redundant entries, every scale and parameter set with non-zero parameters, every choice of flavour, spin and colour of the fields, every normalisation of the tensor operators", "why_tests_cant": "A sign in a Fierz rearrangement only shows when the two Lagrangians are compared component by component; no normalisation convention can be excluded by examples alone.", "anchors": ["wcxf/translators/wet.py:JMS_to_FormFlavor", "wcxf/translators/wet.py:_BernI_to_FormFlavor_I", "wcxf/translators/wet.py:JMS_to_FormFlavor_lep", "wcxf/translators/wet.py:JMS_to_FormFlavor_chrom"]}
{"id": "C72", "title": "JMS to EOS describes the same Lagrangian", "statement": "The coefficients returned by the translation from WET JMS to WET EOS describe the same effective Lagrangian as the JMS coefficients for b -> s l l and b -> u l nu with electrons and muons (every spin and colour, with the EOS normalisation) and for the photon and gluon dipole operators of b -> s with both quark masses. If the four-quark part of the JMS Lagrangian is a combination of the EOS operators, the coefficients of the penguin operators are recovered exactly, and those of the current-current operators multiplied by the mean of the weights of their up-quark and charm-quark parts.", "quantifier": "every JMS coefficient set with consistent redundant entries, every scale and parameter set with non-zero parameters and different masses of b and s, every choice of flavour, spin and colour of the fields, all weights and four-quark coefficients", "why_tests_cant": "The four-quark coefficients are a projection with thirty rational coefficients; whether it inverts the definition of the operators depends on Fierz and colour identities for five quark flavours.", "anchors": ["wcxf/translators/wet.py:JMS_to_EOS", "wcxf/translators/wet.py:_BernII_to_EOS_II", "wcxf/translators/wet.py:_Fierz_to_EOS_V", "wcxf/translators/wet.py:Fierz_to_EOS_lep", "wcxf/translators/wet.py:Fierz_to_EOS_chrom"]}
{"id": "C73", "title": "The matching from SMEFT to WET preserves the effective Lagrangian", "statement": "The WET JMS coefficients returned by the matching from Warsaw up describe the tree-level effective Lagrangian of the SMEFT (contact terms and exchange of Z and W bosons with shifted couplings) without that of the Standard Model, in the mass basis of down quarks: the antisymmetrised four-fermion vertex is the same for every choice of fields without top quark, spin and colour, where coefficients that the WET basis does not list follow from Hermiticity, exchange of bilinears and Fierz identities of lepton currents; the coefficients of photon and gluon dipoles are those of the broken phase. The returned coefficients obey Hermiticity and exchange of bilinears.", "quantifier": "every Warsaw up coefficient set in the independent entries, every scale and parameter set for which the matching succeeds, every list of WET coefficients that covers the basis, every choice of flavour, spin and colour of the fields", "why_tests_cant": "57 matching formulas with products of couplings, Fierz rearrangements and colour factors are compared with the definition of the operators and currents for all flavours at once; tests compare single numbers with the same published formulas.", "anchors": ["wcxf/matchers/smeft.py:C", "wcxf/matchers/smeft.py:match_all", "wcxf/matchers/smeft.py:match_all_array", "wcxf/matchers/smeft.py:rotate_down", "wcxf/matchers/smeft.py:vT", "wcxf/matchers/smeft.py:gzb"]}
{"id": "C74", "title": "Matching and translation to Bern preserve the effective Lagrangian", "statement": "Matching Warsaw up coefficients to WET JMS and translating the result to WET Bern gives, up to one common factor, the tree-level effective Lagrangian of the SMEFT without that of the Standard Model for every four-fermion process of the Bern basis.", "quantifier": "every Warsaw up coefficient set in the independent entries, all parameter sets for which the two steps succeed, every choice of flavour, spin and colour of the fields of the Bern basis", "why_tests_cant": "Each step agrees with its own reference; the mismatch is in the normalisation of operators with two equal bilinears, of which one step counts both orders and the other only one.", "anchors": ["wcxf/matchers/smeft.py:match_all", "wcxf/translators/wet.py:JMS_to_Bern"]}
{"id": "C75", "title": "Matching and translation to flavio preserve the effective Lagrangian", "statement": "Matching Warsaw up coefficients to WET JMS and translating the result to WET flavio gives the tree-level effective Lagrangian of the SMEFT without that of the Standard Model for every four-fermion process of the flavio basis, every spin and colour; no operator that the matching generates is lost.", "quantifier": "every Warsaw up coefficient set in the independent entries, all parameter sets for which the two steps succeed, every choice of flavour, spin and colour of the fields of the flavio basis", "why_tests_cant": "The composition of two steps with different normalisations, mass bases and operator bases; a mismatch between the steps is not visible in tests of either.", "anchors": ["wcxf/matchers/smeft.py:match_all", "wcxf/translators/wet.py:JMS_to_flavio"]}
{"id": "C76", "title": "Translations conserve flavour", "statement": "The translations from WET JMS to flavio, Bern, EOS and FormFlavor and between Bern and flavio conserve the number of quarks and leptons of every flavour: if the coefficients of the source basis are changed as under a redefinition of every field by its own factor, the translated coefficients change in the same way, according to the fields named by the coefficient (EOS: by phases, because its names do not mention quark-antiquark pairs). A translated coefficient depends only on coefficients with the same fields or those of the Hermitian conjugate operator (except EOS). The averages over neutrinos in FormFlavor are not included.", "quantifier": "every input, every factor for each of the twelve fields, every scale and parameter set with non-zero parameters, every coefficient of the result", "why_tests_cant": "A wrong index, a forgotten complex conjugation or a mistyped name in one of about two thousand entries moves a coefficient to another process; tests with random numbers compare the result with the same tables.", "anchors": ["wcxf/translators/wet.py:JMS_to_flavio", "wcxf/translators/wet.py:JMS_to_Bern", "wcxf/translators/wet.py:JMS_to_EOS", "wcxf/translators/wet.py:JMS_to_FormFlavor", "wcxf/translators/wet.py:Bern_to_flavio", "wcxf/translators/wet.py:flavio_to_Bern"]}
{"id": "C77", "title": "Flavour thresholds commute with translations", "statement": "Matching at a flavour threshold (WET to WET-4, WET-4 to WET-3, dropping the coefficients that the smaller basis does not have) commutes with the translations JMS to flavio, JMS to Bern, Bern to flavio and flavio to Bern: matching and then translating gives the same coefficients as translating and then matching, if the smaller bases contain exactly the coefficients without the removed fields.", "quantifier": "every input with names of the larger basis, every set of removed fields, every scale and parameter set with non-zero parameters, every coefficient", "why_tests_cant": "Holds only if no table entry mixes coefficients with and without a heavy flavour; the tests only check the set of keys and values of the restriction itself.", "anchors": ["wcxf/matchers/__init__.py:wet_wet4_flavio", "wcxf/matchers/__init__.py:wet_wet4_bern", "wcxf/matchers/__init__.py:wet_wet4_jms", "wcxf/matchers/__init__.py:wet4_wet3_flavio", "wcxf/matchers/__init__.py:wet4_wet3_jms", "wcxf/translators/__init__.py:JMS_to_flavio_wet4"]}
{"id": "C78", "title": "The text form of a basis lists exactly its contents", "statement": "`str(basis)` succeeds for every valid basis. It starts with a title naming the basis and its EFT, followed by the description if there is one; reading its tables gives exactly the sectors in order, each with its coefficients in order, their LaTeX code and the type, which is R exactly for the coefficients declared real. The names read from the tables are those of `all_wcs`. `repr(basis)` tells bases of different EFT or name apart.", "quantifier": "every basis whose data have the shape of a basis file, with names and LaTeX code in one line and no backticks in names", "why_tests_cant": "No test prints a basis; a wrong type letter or a row in the wrong sector is only visible to a reader, and entries without data occur in no test.", "anchors": ["wcxf/classes.py:Basis.__str__", "wcxf/classes.py:Basis._repr_markdown_", "wcxf/classes.py:Basis._markdown_tables"]}
{"id": "C79", "title": "The text form of a coefficient object determines it", "statement": "`str(wc)` raises exactly what reading `wc.dict` raises. Otherwise its text names EFT, basis and scale, and its table has exactly one row for each entry of `wc.dict`, in order, with name and value. If numbers are written without loss, two objects with the same text have the same EFT, basis, scale and coefficients. Printing affects the object in the same way as reading `wc.dict`.", "quantifier": "every coefficient object, every way of writing numbers in one line; names in one line, coefficient names without backticks", "why_tests_cant": "No test prints a coefficient object.", "anchors": ["wcxf/classes.py:WC.__str__", "wcxf/classes.py:WC._repr_markdown_", "wcxf/classes.py:WC.dict"]}
{"id": "C80", "title": "Muon decay in the matching from SMEFT to WET", "statement": "The Fermi constant is an input parameter and is measured in the decay of the muon. So the coefficient of the operator for that decay that the matching returns (VnueLL_2112 or VnueLL_1221, the deviation from the Standard Model) has no part linear in the SMEFT coefficients: it is exactly -2 v^2 phil3_11 phil3_22 plus (gZ v^2 / 2 mZ)^2 (phil3_21 - phil1_21)(phil3_12 + phil1_12), and it is zero when one of phil3_11, phil3_22 is zero and phil1, phil3 do not mix electron and muon. These products do not vanish in general.", "quantifier": "all Warsaw-up coefficients, all parameters with positive Fermi constant and W mass for which the shift of the Fermi constant by ll_1221, phil3_11 and phil3_22 stays below the Fermi constant, all CKM matrices, all listings", "why_tests_cant": "The cancellation is between ll in the contact term, phil3 in the W couplings and both in the vacuum expectation value; a wrong factor in one of the three leaves a linear term that a comparison of numbers for one benchmark shows only with an independent reference.", "anchors": ["wcxf/matchers/smeft.py:vT", "wcxf/matchers/smeft.py:match_all", "wcxf/matchers/smeft.py:match_all_array"]}
{"id": "C81", "title": "Mixing of photon and Z in the matching from SMEFT to WET", "statement": "The operator phiWB mixes the kinetic terms of the neutral gauge bosons. The effective Lagrangian of the coefficients that the matching returns, as a function of phiWB and for any fixed values of the other coefficients, agrees at phiWB = 0 in value and in first derivative with tree-level exchange of the Z boson that follows from the kinetic and mass terms without expansion: the Z is the canonically normalised field orthogonal to the massless photon, and the hypercharge coupling is fixed by the fine-structure constant.", "quantifier": "all values of the other SMEFT coefficients and all parameters with a real weak mixing angle, all families of coefficients, results and exact solutions near phiWB = 0, all CKM matrices, all listings that contain one of each set of equivalent operators, all quadruples of light fermions", "why_tests_cant": "The formulas for the weak mixing angle, the charge and the Z coupling are expansions in phiWB whose errors cancel or compensate in parts; a wrong factor shows up only as a linear deviation in processes that involve the Z coupling and the angle together.", "anchors": ["wcxf/matchers/smeft.py:eps", "wcxf/matchers/smeft.py:g1b", "wcxf/matchers/smeft.py:sb", "wcxf/matchers/smeft.py:cb", "wcxf/matchers/smeft.py:eb", "wcxf/matchers/smeft.py:gzb", "wcxf/matchers/smeft.py:match_all"]}
{"id": "C82", "title": "Which parameters a translated WET coefficient depends on", "statement": "A coefficient returned by a WET translator depends, besides on the input coefficients, only on the parameters in the normalisation of its operator and of the operators it is computed from. For example the flavio coefficient C9_bsee depends on the Fermi constant, the fine-structure constant and the CKM elements Vtb and Vts, and on nothing else. In particular a coefficient without quark masses and strong coupling in these normalisations is translated in the same way at every scale.", "quantifier": "all six WET translators, all coefficient sets, all pairs of parameter sets (scale, overridden parameters, defaults, CKM matrix, running functions) with non-zero normalisations, all coefficients of the result", "why_tests_cant": "A test evaluates a translator at one or two scales with the default parameters; a dependence on a wrong parameter only shows when exactly that parameter is varied with all others fixed, for each of about two thousand coefficients.", "anchors": ["wcxf/translators/wet.py:get_parameters", "wcxf/translators/wet.py:JMS_to_flavio", "wcxf/translators/wet.py:JMS_to_Bern", "wcxf/translators/wet.py:JMS_to_EOS", "wcxf/translators/wet.py:JMS_to_FormFlavor", "wcxf/translators/wet.py:Bern_to_flavio", "wcxf/translators/wet.py:flavio_to_Bern"]}
{"id": "C83", "title": "Parameters of the theories with four and three flavours", "statement": "The translators registered for WET-4 and WET-3 use the strong coupling and quark masses of the theory with that number of flavours: the result is the same as with parameters computed with four or three flavours.", "quantifier": "all translators registered for WET-4 and WET-3, all numbers of flavours, scales, parameters, CKM matrices and running functions with non-zero normalisations, all coefficient sets, all coefficients of the result without bottom quarks", "why_tests_cant": "The number of flavours enters only through the running parameters; the difference between the coupling with five and with four flavours is a few per cent and vanishes near the threshold, so reference values for dipoles at one scale do not tell them apart.", "anchors": ["wcxf/translators/wet.py:get_parameters", "wcxf/translators/wet.py:JMS_to_Bern", "wcxf/translators/wet.py:Fierz_to_Bern_chrom", "wcxf/translators/wet.py:JMS_to_flavio", "wcxf/translators/wet.py:Bern_to_flavio", "wcxf/translators/wet.py:flavio_to_Bern", "wcxf/util/qcd.py:alpha_s"]}
{"id": "C84", "title": "Conjugation of coefficients and sign of the CKM phase", "statement": "Translation and matching respect CP: when all input coefficients are complex conjugated and the sign of the CKM phase gamma is changed, all output coefficients are complex conjugated, under the same names, and errors are the same. In particular, real coefficients stay real when gamma is zero.", "quantifier": "all registered translators and matchers, all coefficient sets, scales, default parameters and given parameters, all parametrisations of the CKM matrix in which gamma is the only phase", "why_tests_cant": "Reference values are produced with one value of gamma and mostly real coefficients; a conjugation missing or added on a CKM element or on one coefficient changes only imaginary parts, which such comparisons hardly see.", "anchors": ["wcxf/translators/wet.py:JMS_to_flavio", "wcxf/translators/wet.py:JMS_to_EOS", "wcxf/translators/wet.py:JMS_to_Bern", "wcxf/translators/wet.py:JMS_to_FormFlavor", "wcxf/translators/wet.py:Bern_to_flavio", "wcxf/translators/wet.py:flavio_to_Bern", "wcxf/translators/wet.py:FlavorKit_to_JMS", "wcxf/translators/wet.py:JMS_to_FlavorKit", "wcxf/translators/smeft.py:warsaw_to_warsaw_up", "wcxf/translators/smeft.py:warsaw_up_to_warsaw", "wcxf/translators/smeft.py:warsaw_to_warsawmass", "wcxf/matchers/smeft.py:match_all", "wcxf/translators/__init__.py", "wcxf/matchers/__init__.py"]}
{"id": "C85", "title": "Semileptonic effective Lagrangian in the matching from SMEFT to WET in the EOS basis", "statement": "Matching SMEFT coefficients in the basis Warsaw up to WET and translating the result to the EOS basis gives coefficients whose effective Lagrangian, with the operators and normalisation of EOS, is for every process b -> s l l and b -> u l nu the tree-level effective Lagrangian of the SMEFT minus that of the Standard Model, with left-handed down quarks in their mass basis.", "quantifier": "all coefficient sets in the basis Warsaw up with consistent values, all parameters with non-zero normalisations, all CKM matrices, all complete listings of the JMS basis, all quadruples of external fermions and antifermions covered by EOS", "why_tests_cant": "Tests compare the translation to EOS with the translation to flavio for one input; a common error of both, or a mismatch between the normalisation used in matching and the one used in translation, is invisible there.", "anchors": ["wcxf/matchers/smeft.py:match_all", "wcxf/matchers/smeft.py:match_all_array", "wcxf/translators/wet.py:JMS_to_EOS", "wcxf/matchers/__init__.py"]}
{"id": "C86", "title": "Effective Lagrangian in the matching from the Warsaw basis to WET", "statement": "Matching SMEFT coefficients given in the Warsaw basis, where the down-quark mass matrix is diagonal, gives WET coefficients (in the JMS, flavio and EOS bases) whose effective Lagrangian is the tree-level effective Lagrangian of the SMEFT coefficients themselves minus that of the Standard Model, with the left-handed up quarks rotated to their mass basis by the CKM matrix. The same holds for the dipole coefficients of charged leptons and up quarks.", "quantifier": "all coefficient sets in the Warsaw basis with consistent values, all parameters with non-zero normalisations, all unitary CKM matrices, all complete listings of the bases, all quadruples of external fermions and antifermions other than the top quark", "why_tests_cant": "The code never forms this Lagrangian: it rotates all quark doublets to the basis Warsaw up, matches there, and rotates the left-handed down quarks back. That the two rotations compensate for down quarks in all operators, and that nothing else but up quarks is rotated, is a statement on contractions over all flavours that comparisons of single coefficients do not show.", "anchors": ["wcxf/matchers/__init__.py", "wcxf/matchers/smeft.py:match_all", "wcxf/translators/smeft.py:warsaw_to_warsaw_up", "wcxf/translators/wet.py:JMS_to_flavio", "wcxf/translators/wet.py:JMS_to_EOS"]}
{"id": "C87", "title": "Operators that violate baryon number in the matching from SMEFT to WET", "statement": "The WET coefficients returned by the matching from the basis Warsaw up to JMS for the operators with three quarks and a lepton describe the same effective interaction as the four SMEFT operators duql, qque, qqql and duue, with left-handed down quarks in their mass basis. Operators with three quarks and an antilepton, which are absent in the SMEFT at dimension six, get the value zero.", "quantifier": "all coefficient sets in the basis Warsaw up with consistent values, all parameters, all CKM matrices, all complete listings of these operators, all choices of four external fermions (kind, generation, spin, colour) other than the top quark", "why_tests_cant": "Each interaction is a sum of monomials of anticommuting fields; several coefficients with permuted flavours describe the same interaction, and the formulas depend on how weak isospin is contracted. The tests contain no coefficient that violates baryon number.", "anchors": ["wcxf/matchers/smeft.py:match_all", "wcxf/matchers/smeft.py:match_all_array", "wcxf/translators/wet.py:rotate_down", "wcxf/util/smeftutil.py:symmetrize"]}
{"id": "C88", "title": "Field phases and conserved charges in the matching from SMEFT to WET", "statement": "If all SMEFT coefficients are multiplied by the factors they get when every fermion multiplet of every generation is multiplied by its own phase (one common phase for the three quark doublets), the matching to the JMS basis succeeds again and every returned WET coefficient is multiplied by the factor of its own fields. It follows that any charge conserved by all SMEFT coefficients is conserved by all returned coefficients: the lepton number of each generation, baryon number, and the numbers of each right-handed fermion. The lepton numbers are also conserved by the matching from the Warsaw basis to flavio, Bern and EOS: coefficients that violate them are returned as zero.", "quantifier": "all consistent coefficient sets in the bases Warsaw and Warsaw up, all phases, all integer charges that are equal for the three quark doublets, all parameters and CKM matrices, all WET coefficients with flavour indices", "why_tests_cant": "There are infinitely many phases and coefficient sets. Tests that match a few coefficients do not look at the many coefficients that must vanish, and a wrong index order in one of 97 formulas shows up only for unequal generations.", "anchors": ["wcxf/matchers/smeft.py:match_all", "wcxf/matchers/smeft.py:match_all_array", "wcxf/matchers/__init__.py:warsaw_to_jms", "wcxf/matchers/__init__.py:warsaw_to_flavio", "wcxf/matchers/__init__.py:warsaw_to_bern", "wcxf/matchers/__init__.py:warsaw_to_eos", "wcxf/translators/smeft.py:warsaw_to_warsaw_up", "wcxf/translators/wet.py:rotate_down"]}
{"id": "C89", "title": "Bern_to_flavio and flavio_to_Bern describe the same Lagrangian", "statement": "The Lagrangian written with the flavio operators and the coefficients returned by Bern_to_flavio equals the Lagrangian written with the Bern operators and the given coefficients, for every process of the flavio basis and every spin and colour of the fields, except for the tensor operators of b -> s l l' and b -> d l l', which are exactly what is missing. In the other direction nothing is missing but the operators s -> d nu nu. The same holds for the electromagnetic and chromomagnetic dipole operators of b -> s and b -> d.", "quantifier": "all coefficient sets of the two bases, all admissible parameters, scales and CKM matrices, all fields with flavour, spinor index and colour", "why_tests_cant": "The translators are tables of hundreds of formulas with Fierz identities, products of up to four gamma matrices, CKM elements and loop factors. A round trip test does not see an error made in both directions, and no test compares the operators themselves.", "anchors": ["wcxf/translators/wet.py:Bern_to_flavio", "wcxf/translators/wet.py:flavio_to_Bern"]}
{"id": "C90", "title": "Which coefficient sets determine an effective Lagrangian", "statement": "A set of WET coefficients can be completed to flavour tensors that respect Hermiticity and the exchange of bilinears exactly if the listed coefficients do not contradict each other; if no two listed coefficients are related, this means that the self-conjugate ones are real. A set of Warsaw coefficients can be completed exactly if the coefficients that Hermiticity makes real are real. The completion is unique. Translation to flavio then succeeds and preserves the one Lagrangian of the input. Matching accepts any input and acts as if the imaginary parts of coefficients that must be real were absent, and its result gives the tree-level Lagrangian of that input.", "quantifier": "all listings, all coefficient sets of the WET in the JMS basis, all flat coefficient sets of the Warsaw basis in the up basis, all parameters, CKM matrices and scales", "why_tests_cant": "The existence of the tensors is a statement about all assignments of values to several thousand coefficients related by permutations and conjugation; tests only see that a particular file was read.", "anchors": ["wcxf/translators/wet.py:_JMS_to_array", "wcxf/translators/wet.py:JMS_to_flavio", "wcxf/util/smeftutil.py:symmetrize", "wcxf/translators/smeft.py:wcxf2arrays", "wcxf/matchers/smeft.py:match_all"]}
{"id": "C91", "title": "EOS, FormFlavor and flavio coefficients of the same operators agree", "statement": "Translating one JMS coefficient set to EOS, FormFlavor and flavio gives compatible results for the operators they share. The b->s l l vector coefficients of EOS equal those of flavio, its scalar coefficients are m_b times those of flavio, its b->u l nu coefficients equal those of flavio, and its dipole coefficients combined with both quark masses give those of flavio. The semimuonic and dipole coefficients of FormFlavor are those of flavio up to the normalisation and the change from chiral to vector and axial currents. Every Delta F = 2 coefficient has the same value in FormFlavor and flavio, where it has the same name.", "quantifier": "all JMS coefficient sets, all admissible parameters and CKM matrices and, for EOS, all masses with m_b^2 different from m_s^2", "why_tests_cant": "The outputs of two translators are never compared by the tests, and each pair of coefficients depends on all of the input through different intermediate bases.", "anchors": ["wcxf/translators/wet.py:JMS_to_EOS", "wcxf/translators/wet.py:JMS_to_flavio", "wcxf/translators/wet.py:JMS_to_FormFlavor", "wcxf/translators/wet.py:_BernI_to_FormFlavor_I", "wcxf/translators/wet.py:_BernI_to_Flavio_I"]}
{"id": "C92", "title": "The Warsaw, Warsaw up and Warsaw mass bases agree where their definitions do", "statement": "The translators from Warsaw to Warsaw up and to Warsaw mass give the same values to the coefficients of the operators of a quark doublet and a right-handed up quark (uphi, uG, uW, uB). Both leave all coefficients of operators without quark doublets as they are, except that Warsaw mass diagonalises the operator of dimension five. Going from Warsaw up to Warsaw and on to Warsaw mass leaves all these coefficients unchanged.", "quantifier": "all flat coefficient sets whose self-conjugate coefficients are real, all parameters, all CKM matrices (unitary ones for the last sentence), all listings that contain the independent coefficients", "why_tests_cant": "The three bases are implemented by two independent pieces of code, one through arrays of all operators and one operator by operator on the dictionary; the tests never compare their results.", "anchors": ["wcxf/translators/smeft.py:warsaw_to_warsawmass", "wcxf/translators/smeft.py:warsaw_to_warsaw_up", "wcxf/translators/smeft.py:warsaw_up_to_warsaw", "wcxf/util/smeftutil.py:flavor_rotation", "wcxf/util/smeftutil.py:symmetrize"]}
{"id": "C93", "title": "The EOS parameter file determines the coefficients", "statement": "Two coefficient sets that give the same EOS parameter file with the same table of Standard Model values have the same value of every coefficient that has a parameter in the table.", "quantifier": "every pair of coefficient sets, every table of Standard Model values, every coefficient named in the table", "why_tests_cant": "Loss of information in an export shows only for pairs of inputs with the same output, which a test that looks at single files does not produce.", "anchors": ["wcxf/converters/eos.py:wcxf2eos", "wcxf/converters/eos.py:get_eos_np"]}
{"id": "C94", "title": "The installed package: translation there and back, and matching in one or two steps, on objects and on files", "statement": "After importing the package, `translate` and `match` of a Wilson coefficient object apply the function that the package defines for the given EFTs and bases, and raise ValueError if there is none. Translating from the Warsaw to the Warsaw up basis and back returns the same coefficients and scale, whatever parameters are given; so do the two commands `wcxf translate` that go through a file. Matching a Warsaw object to the flavio, EOS or Bern basis gives the same result as matching to JMS and translating, and translating from FlavorKit to flavio the same as going through JMS; on files, the two commands leave the same text as the one.", "quantifier": "every object and file, every set of EFT and basis definitions loaded at import, every unitary CKM matrix from the default parameters, every parameter argument, every file name, both output formats, both orders of options, every previous contents of the output files", "why_tests_cant": "The behaviour of the installed package results from the registrations at import, the lookup by name, the dropping of zeros, the file formats and the numerical functions together; tests check these one by one or for a few files.", "anchors": ["wcxf/__init__.py", "wcxf/translators/__init__.py", "wcxf/matchers/__init__.py", "wcxf/classes.py:translator", "wcxf/classes.py:matcher", "wcxf/classes.py:WC.translate", "wcxf/classes.py:WC.match", "wcxf/cli.py:translate", "wcxf/cli.py:match"]}
{"id": "C95", "title": "WET translations return the coefficients of the target basis, so that translated files are valid", "statement": "Each translator between WET bases (JMS to flavio, Bern, EOS, FormFlavor; Bern to flavio; flavio to Bern) returns the same set of names whatever the input, each once: the names of the target basis (given as explicit lists). If the source has only coefficients with fields from some set (e.g. without bottom quark), the names with nonzero value have only such fields. Hence in the installed package a translated object for five, four or three flavours passes `validate` when the target basis lists these names, and `wcxf translate` to a file followed by `wcxf validate wc` on this file both end with status 0.", "quantifier": "every translator, every input dictionary, every scale and parameters for which the running parameters are physical, every set of fields, every set of EFT and basis definitions loaded at import, every file name, both output formats", "why_tests_cant": "The result has up to 1010 names composed from several lists, and which values vanish exactly depends on the input; tests check random inputs of one theory.", "anchors": ["wcxf/translators/wet.py:JMS_to_flavio", "wcxf/translators/wet.py:JMS_to_Bern", "wcxf/translators/wet.py:JMS_to_EOS", "wcxf/translators/wet.py:JMS_to_FormFlavor", "wcxf/translators/wet.py:Bern_to_flavio", "wcxf/translators/wet.py:flavio_to_Bern", "wcxf/translators/__init__.py", "wcxf/classes.py:WC.validate", "wcxf/classes.py:WC.translate", "wcxf/cli.py:translate", "wcxf/cli.py:validate"]}
{"id": "C96", "title": "With the tables of the package, the EOS export contains every coefficient of the EOS basis, and fails only for non-universal charged currents", "statement": "The tables of Standard Model values shipped with the package, read in any order, also among other files that are not marked as relevant, give 62 parameters, each with the central value of its row. For coefficients of the EOS basis the conversion to EOS parameters fails exactly if some charged-current coefficient differs between electrons and muons. Otherwise it gives these 62 parameters, and each is the table value plus the real or imaginary part of the coefficient it is named after (for `b->ulnu`, the common value of both leptons). Two sets of coefficients with the same parameters agree, except for the imaginary parts of the eight coefficients (`b->s::c1` to `c6`, `c8`, `c8'`) that have only a real parameter. The command `wcxf2eos IN --output OUT` on a valid file in the EOS basis ends with status 0 exactly in the universal case and leaves these parameters in `OUT`.", "quantifier": "every dictionary of complex values with names of the EOS basis, every directory with the two tables and unmarked files, every input file, every codec", "why_tests_cant": "That no parameter name falls through to zero depends on how 62 names are rewritten by two regular expressions and two replacements, and on all complex values; a test looks at a few parameters.", "anchors": ["wcxf/converters/eos.py:get_sm_wcs", "wcxf/converters/eos.py:get_eos_np", "wcxf/converters/eos.py:wcxf2eos", "wcxf/data/eos_btos.yaml", "wcxf/data/eos_btou.yaml", "wcxf/cli.py:eos"]}
{"id": "C97", "title": "In the installed package, flavour thresholds and translations can be done in either order, also through files", "statement": "For the thresholds WET to WET-4 and WET-4 to WET-3 and the translations JMS to flavio, JMS to Bern, Bern to flavio and flavio to Bern: `translate` and then `match` returns an object with the same EFT, basis, scale, coefficient names and values as `match` and then `translate`. The same holds for files: `wcxf translate` followed by `wcxf match`, and `wcxf match` followed by `wcxf translate`, all end with status 0 and leave files that are read as the same coefficients. The smaller bases are assumed to list exactly the coefficients without the removed fields.", "quantifier": "every object with coefficients of the source basis, every set of EFT and basis definitions loaded at import, every scale and parameters for which the running parameters are physical, every set of removed fields, all file names and both formats", "why_tests_cant": "The two orders pass through different intermediate objects, from which zeros have been dropped; tests never compare the two.", "anchors": ["wcxf/classes.py:WC.translate", "wcxf/classes.py:WC.match", "wcxf/cli.py:translate", "wcxf/cli.py:match", "wcxf/matchers/__init__.py", "wcxf/translators/__init__.py", "wcxf/translators/wet.py"]}
{"id": "C98", "title": "A WET file in the JMS basis can be exported to EOS with two commands exactly if its b -> u l nu coefficients are lepton universal", "statement": "With the installed package and the EOS tables, `wcxf translate EOS f --output g` on a WET file in the JMS basis ends with status 0. `wcxf2eos g --output h` then ends with status 0 exactly if the coefficients of `VnueduLL`, `VnueduLR`, `SnueduRL`, `SnueduRR` and `TnueduRR` in `f` are the same for `_1131` and `_2231`. In this case `h` contains each parameter of the tables once, and every parameter is the sum of its value in the tables and the real or imaginary part of the translated coefficient.", "quantifier": "every WET file in the JMS basis, all coefficients and scales for which the running parameters are physical and the bottom and strange masses differ, every set of definitions loaded at import in which the EOS basis lists the names of the translator, every order of the EOS tables among other files, all file names", "why_tests_cant": "The condition is on the input of the first command and the error appears in the second; a test would have to choose coefficients that differ only for one lepton.", "anchors": ["wcxf/cli.py:translate", "wcxf/cli.py:eos", "wcxf/converters/eos.py:wcxf2eos", "wcxf/converters/eos.py:get_sm_wcs", "wcxf/translators/wet.py:JMS_to_EOS", "wcxf/translators/__init__.py:JMS_to_EOS", "wcxf/classes.py:WC.translate"]}
{"id": "C99", "title": "A Warsaw file translated to Warsaw mass can be exported to SMEFTsim", "statement": "With the installed package, a SMEFT file in the Warsaw basis is translated to the basis 'Warsaw mass' by `wcxf translate`, as the warning of `wcxf2smeftsim` asks, and the result is then exported by `wcxf2smeftsim` with status 0 and a complete card.", "quantifier": "every file in the Warsaw basis, all coefficients, both model sets and input schemes, every cutoff scale, every set of definitions loaded at import in which the basis lists its names, all file names", "why_tests_cant": "The test of the export uses a file that lists all coefficients, and no test runs the two commands in sequence.", "anchors": ["wcxf/cli.py:translate", "wcxf/cli.py:smeftsim", "wcxf/converters/smeftsim.py:smeftsim_card_fill", "wcxf/translators/smeft.py:warsaw_to_warsawmass", "wcxf/translators/__init__.py:warsaw_to_warsawmass", "wcxf/classes.py:Translator.translate"]}
{"id": "C100", "title": "Standard streams and named files carry the same data", "statement": "With the input omitted or `-`, the commands `wcxf` and `wcxf2eos` treat the text on the standard input like a file of these contents. With `--output` omitted, `-` or without a value they print what they would write to a named output file, end with the same status and change no file.", "quantifier": "all texts, all subcommands and formats, all files, every order of the arguments, every behaviour of the libraries", "why_tests_cant": "The tests run `convert` on one document and `validate` on two; `translate`, `match` and `wcxf2eos` are not run with streams, and no test gives the option without a value.", "anchors": ["wcxf/cli.py:wcxf_cli", "wcxf/cli.py:convert", "wcxf/cli.py:translate", "wcxf/cli.py:match", "wcxf/cli.py:validate", "wcxf/cli.py:eos", "wcxf/classes.py:WCxf.dump", "wcxf/classes.py:_dump_json", "wcxf/converters/yamljson.py:convert_json", "wcxf/converters/yamljson.py:convert_yaml"]}
{"id": "C101", "title": "The message of validate is exact", "statement": "`wcxf validate TYPE FILE` prints 'Validation successful.' exactly if the file exists, is of the type asked for (an EFT, basis or coefficient file) and is valid; then its status is 0. It changes no file.", "quantifier": "all types, all files and texts, every set of registered EFTs and bases, every behaviour of the libraries and of LaTeX", "why_tests_cant": "The tests check the message for two valid files; that the message never appears for an invalid one concerns all texts.", "anchors": ["wcxf/cli.py:validate", "wcxf/cli.py:wcxf_cli", "wcxf/classes.py:WC.validate", "wcxf/classes.py:Basis.validate", "wcxf/classes.py:WCxf.load"]}
{"id": "C102", "title": "Options of wcxf2smeftsim without a value and its standard input", "statement": "An option of `wcxf2smeftsim` that is omitted or given without a value has its documented default. With the input `-`, the text on the standard input is treated like a file of these contents.", "quantifier": "all combinations of options, all files and texts, all answers to the warning, every behaviour of the libraries", "why_tests_cant": "The only test calls the command once, with a named file and without options.", "anchors": ["wcxf/cli.py:smeftsim", "wcxf/converters/smeftsim.py:initialize_smeftsim_card", "wcxf/converters/smeftsim.py:smeftsim_card_fill", "wcxf/converters/smeftsim.py:smeftsim_card_text"]}
