{
 "claims": [
  {
   "property": "C01",
   "status": "proved",
   "theorems": [
    "Verif.C01_lookup_latest_live",
    "Verif.C01_live_unique",
    "Verif.C01_isolation",
    "Verif.C01_base_class_clear_shares_registry"
   ],
   "note": "Refinement of the registries against the event log, by induction over histories. For a registry that was never used the exception is AttributeError."
  },
  {
   "property": "C02",
   "status": "proved",
   "theorems": [
    "Verif.C02_known_bases",
    "Verif.C02_known_translators"
   ],
   "note": "Listings equal the live names of the event log in order of registration."
  },
  {
   "property": "C03",
   "status": "partial",
   "theorems": [
    "Verif.C03_refuted",
    "Verif.C03_partial"
   ],
   "note": "False: a rejected definition stays registered (witness). Partial: all other names, older objects and listings are unaffected."
  },
  {
   "property": "C04",
   "status": "proved",
   "theorems": [
    "Verif.C04_child_overrides_parent"
   ],
   "note": "Closed form of a child definition in every reachable state."
  },
  {
   "property": "C05",
   "status": "partial",
   "theorems": [
    "Verif.C05_refuted",
    "Verif.C05_partial"
   ],
   "note": "False: the child updates the dictionary it shares with its parent (witness). Partial: bases with another dictionary are unaffected."
  },
  {
   "property": "C06",
   "status": "partial",
   "theorems": [
    "Verif.C06_refuted",
    "Verif.C06_partial",
    "Verif.C06_names"
   ],
   "note": "False after a cached read followed by a child definition (witness). Partial: no read before the last child definition."
  },
  {
   "property": "C07",
   "status": "partial",
   "theorems": [
    "Verif.C07_refuted",
    "Verif.C07_partial"
   ],
   "note": "False: children write into the dictionary of their parent, so coefficient lists depend on the order of the children (witness). Partial: parents are not children, and children of one parent agree on common sectors."
  },
  {
   "property": "C08",
   "status": "proved",
   "theorems": [
    "Verif.C08_basis_validation",
    "Verif.C08_eft_object"
   ],
   "note": "Equivalence with a specification, including the order of the checks."
  },
  {
   "property": "C09",
   "status": "proved",
   "theorems": [
    "Verif.C09_no_other_valueError",
    "Verif.C09_wc_validation"
   ],
   "note": "Equivalence with a specification; exceptions characterised."
  },
  {
   "property": "C10",
   "status": "partial",
   "theorems": [
    "Verif.C10_refuted",
    "Verif.C10_partial"
   ],
   "note": "False: validation does not look at the values (witness). Partial: values that are numbers or Re/Im mappings of numbers."
  },
  {
   "property": "C11",
   "status": "proved",
   "theorems": [
    "Verif.C11_numbers_round_trip"
   ],
   "note": "Numbers are exact reals; order of keys included."
  },
  {
   "property": "C12",
   "status": "partial",
   "theorems": [
    "Verif.C12_refuted",
    "Verif.C12_partial"
   ],
   "note": "False after modification of values following a read (witness). Partial: modifications before the first successful read."
  },
  {
   "property": "C13",
   "status": "proved",
   "theorems": [
    "Verif.C13_translate",
    "Verif.C13_uses_latest"
   ],
   "note": "Any registered translator function."
  },
  {
   "property": "C14",
   "status": "proved",
   "theorems": [
    "Verif.C14_match"
   ],
   "note": "Any registered matcher function."
  },
  {
   "property": "C15",
   "status": "proved",
   "theorems": [
    "Verif.C15_dump_load_wc"
   ],
   "note": "For every codec that is faithful on the written document."
  },
  {
   "property": "C16",
   "status": "partial",
   "theorems": [
    "Verif.C16_read_before_dump_wc",
    "Verif.C16_read_before_dump_basis",
    "Verif.C16_document",
    "Verif.C16_refuted",
    "Verif.C16_partial"
   ],
   "note": "Written document characterised; reading never changes it. False for the last part: a key _dict in the file replaces the numeric dictionary (witness). Partial: documents without the private cache keys."
  },
  {
   "property": "C17",
   "status": "proved",
   "theorems": [
    "Verif.C17_unknown_format",
    "Verif.C17_known_format"
   ],
   "note": "All format strings, lower-casing as a function on strings."
  },
  {
   "property": "C18",
   "status": "proved",
   "theorems": [
    "Verif.C18_format_detection"
   ],
   "note": "For every codec; equivalent documents are related by Spec.Same."
  },
  {
   "property": "C19",
   "status": "proved",
   "theorems": [
    "Verif.C19_dump_load_basis",
    "Verif.C19_replaced_parent"
   ],
   "note": "For every codec that is faithful on the written document. C19_replaced_parent shows what happens if the parent was redefined."
  },
  {
   "property": "C20",
   "status": "proved",
   "theorems": [
    "Verif.C20_sm_plus_np",
    "Verif.C20_keys",
    "Verif.C20_single_group"
   ],
   "note": "Equivalence with a relational specification; names with Re{..}/Im{..} groups as character lists."
  },
  {
   "property": "C21",
   "status": "proved",
   "theorems": [
    "Verif.C21_non_universal",
    "Verif.C21_table"
   ],
   "note": "The exception is raised exactly for non-universal values; stated per name and for the whole table."
  },
  {
   "property": "C22",
   "status": "partial",
   "theorems": [
    "Verif.C22_refuted",
    "Verif.C22_partial",
    "Verif.C22_partial_success"
   ],
   "note": "False: the output is emptied while the arguments are parsed (witness). Partial: only the target is touched, and what it may contain at every crash point. A run that ends with status 0 has read a valid file."
  },
  {
   "property": "C23",
   "status": "partial",
   "theorems": [
    "Verif.C23_partial",
    "Verif.C23_refuted"
   ],
   "note": "False: a valid file that omits zero coefficients ends with KeyError after the output has been emptied (witness). Partial: only the output is touched, and only for valid accepted input; complete card exactly if no coefficient of the card is omitted; contents at every crash point."
  },
  {
   "property": "C24",
   "status": "partial",
   "theorems": [
    "Verif.C24_refuted",
    "Verif.C24_partial",
    "Verif.C24_missing_input"
   ],
   "note": "False: four witnesses with status 0. Partial: exact characterisation of status 0, including the silent cases."
  },
  {
   "property": "C25",
   "status": "partial",
   "theorems": [
    "Verif.C25_refuted",
    "Verif.C25_partial"
   ],
   "note": "False: temporary directory left if latex is missing, UnboundLocalError without log (witnesses). Partial: exactly these two cases."
  },
  {
   "property": "C26",
   "status": "proved",
   "theorems": [
    "Verif.C26_excerpt",
    "Verif.C26_covers"
   ],
   "note": "Any log, by induction over its lines; the loop is shown to terminate by recursion on the remaining lines."
  },
  {
   "property": "C27",
   "status": "partial",
   "theorems": [
    "Verif.C27_refuted",
    "Verif.C27_partial"
   ],
   "note": "False: shortcuts before the checks (witnesses). Partial: away from the shortcuts, and only ValueError is raised. rundec is a parameter."
  },
  {
   "property": "C28",
   "status": "partial",
   "theorems": [
    "Verif.C28_refuted",
    "Verif.C28_partial"
   ],
   "note": "False for numbers of flavours passed as 5 and 5.0 (witness). Partial: typed calls, any history, with evictions and exceptions."
  },
  {
   "property": "C29",
   "status": "proved",
   "theorems": [
    "Verif.C29_symmetrize",
    "Verif.C29_matrix",
    "Verif.C29_tensor"
   ],
   "note": "The assignment lists are data; the closed form of executing them is proved for all tensors, its table facts are checked by the kernel over all 81 entries. C29_symmetrize: whole dictionaries."
  },
  {
   "property": "C30",
   "status": "proved",
   "theorems": [
    "Verif.C30_symmetrize",
    "Verif.C30_symmetrize_twice",
    "Verif.C30_matrix",
    "Verif.C30_tensor",
    "Verif.C30_idempotent"
   ],
   "note": "Tensors, matrices and whole dictionaries."
  },
  {
   "property": "C31",
   "status": "proved",
   "theorems": [
    "Verif.C31_tensor",
    "Verif.C31_tensor_free",
    "Verif.C31_matrix",
    "Verif.C31_matrix_free"
   ],
   "note": "The independent entries determine the completion (C31_tensor, C31_matrix) and are free (.._free)."
  },
  {
   "property": "C32",
   "status": "proved",
   "theorems": [
    "Verif.C32_rotation"
   ],
   "note": "Arbitrary matrices; every relation of the operator table."
  },
  {
   "property": "C33",
   "status": "proved",
   "theorems": [
    "Verif.C33_compose",
    "Verif.C33_inverse"
   ],
   "note": "Composition as equality of dictionaries, inverse for any left inverse per field."
  },
  {
   "property": "C34",
   "status": "proved",
   "theorems": [
    "Verif.C34_round_trip",
    "Verif.C34_identity"
   ],
   "note": "C34_round_trip: also when the intermediate set is stored as any equivalent dictionary. CKM matrix is a parameter with unitarity as hypothesis, basis listings are parameters."
  },
  {
   "property": "C35",
   "status": "proved",
   "theorems": [
    "Verif.C35_flat",
    "Verif.C35_arrays",
    "Verif.C35_unknown",
    "Verif.C35_known"
   ],
   "note": "Both directions and the KeyError condition (C35_unknown, C35_known)."
  },
  {
   "property": "C36",
   "status": "proved",
   "theorems": [
    "Verif.C36_frame"
   ],
   "note": "Takagi diagonalisation is a parameter (its singular values); frame condition and exact values of the changed operators."
  },
  {
   "property": "C37",
   "status": "partial",
   "theorems": [
    "Verif.C37_honoured_partial",
    "Verif.C37_direct_partial",
    "Verif.C37_refuted"
   ],
   "note": "Refuted: the three registered translators within the SMEFT do not pass on `parameters` (translators/__init__.py), with a witness whose result differs. Partial: all other registered translators, all registered matchers, and the three functions of translators/smeft.py called directly."
  },
  {
   "property": "C38",
   "status": "proved",
   "theorems": [
    "Verif.C38_call",
    "Verif.C38_unchanged",
    "Verif.C38_answers"
   ],
   "note": "Heap model: parameter dictionaries are mutable objects, the default object is shared between all calls. Any history of calls (default, fresh or user-owned parameter objects) leaves the default object as it was, and each call answers as the pure model does."
  },
  {
   "property": "C39",
   "status": "partial",
   "theorems": [
    "Verif.C39_partial",
    "Verif.C39_refuted"
   ],
   "note": "Refuted for redundant listings (two members of one orbit with unrelated values). Partial: values kept, absent = 0, every entry determined, relations hold for one member per orbit."
  },
  {
   "property": "C40",
   "status": "proved",
   "theorems": [
    "Verif.C40_direct"
   ],
   "note": "All JMS coefficient sets; the intermediate dictionary may drop zeros."
  },
  {
   "property": "C41",
   "status": "partial",
   "theorems": [
    "Verif.C41_partial",
    "Verif.C41_refuted"
   ],
   "note": "Refuted: the flavio coefficients of s -> d nu nu (produced by Bern_to_flavio) are lost (witness). Partial: all other flavio coefficients."
  },
  {
   "property": "C42",
   "status": "proved",
   "theorems": [
    "Verif.C42_bern_back"
   ],
   "note": "Exact statement: kept coefficients, the tensor part of 7 and 7p becomes zero (16 times 9 and 9p remain), everything else zero."
  },
  {
   "property": "C43",
   "status": "proved",
   "theorems": [
    "Verif.C43_flavorkit",
    "Verif.C43_linear"
   ],
   "note": "flavio, Bern, EOS, FormFlavor (C43_linear) and FlavorKit (C43_flavorkit) translators, parameters without division by zero."
  },
  {
   "property": "C44",
   "status": "proved",
   "theorems": [
    "Verif.C44_flavorkit",
    "Verif.C44_absent_zero",
    "Verif.C44_zero"
   ],
   "note": "flavio, Bern, EOS, FormFlavor (C44_absent_zero: equal outputs; C44_zero) and FlavorKit (C44_flavorkit: equal up to zero entries) translators."
  },
  {
   "property": "C45",
   "status": "proved",
   "theorems": [
    "Verif.C45_flavorkit",
    "Verif.C45_total",
    "Verif.C45_parameters"
   ],
   "note": "flavio, Bern, EOS, FormFlavor and FlavorKit translators for parameters without division by zero; C45_parameters: when the parameters can be evaluated."
  },
  {
   "property": "C46",
   "status": "partial",
   "theorems": [
    "Verif.C46_partial",
    "Verif.C46_refuted"
   ],
   "note": "Refuted: the b-d entries are read (index s-1 = -1, last update wins). Partial: flavour average of those entries."
  },
  {
   "property": "C47",
   "status": "partial",
   "theorems": [
    "Verif.C47_partial",
    "Verif.C47_refuted"
   ],
   "note": "Refuted: left-handed lepton dipoles are divided by g_s. Partial: quarks, and what leptons give."
  },
  {
   "property": "C48",
   "status": "partial",
   "theorems": [
    "Verif.C48_round_partial",
    "Verif.C48_unknown_partial",
    "Verif.C48_unknown_refuted"
   ],
   "note": "Identity proved for all coefficient sets of the basis; unknown names raise ValueError unless they start with K2R_. Refuted for K2R_ names with a flavour other than 1-3: UnboundLocalError, or a silently wrong lepton mass after another dipole."
  },
  {
   "property": "C49",
   "status": "proved",
   "theorems": [
    "Verif.C49_zero",
    "Verif.C49_returns"
   ],
   "note": "All parameters, all all-zero inputs; existence of the result for physical electroweak parameters."
  },
  {
   "property": "C50",
   "status": "proved",
   "theorems": [
    "Verif.C50_names",
    "Verif.C50_validates"
   ],
   "note": "From Warsaw and Warsaw up, for every listing of the JMS basis; result validates."
  },
  {
   "property": "C51",
   "status": "partial",
   "theorems": [
    "Verif.C51_commutes_partial",
    "Verif.C51_refuted"
   ],
   "note": "Refuted: the registered Warsaw to Warsaw up translator ignores the parameters (witness with a CKM matrix depending on Vus). Partial: parameters with the default CKM matrix."
  },
  {
   "property": "C52",
   "status": "proved",
   "theorems": [
    "Verif.C52_commutes"
   ],
   "note": "All inputs, all parameters, equality including exceptions; translators as modelled."
  },
  {
   "property": "C53",
   "status": "partial",
   "theorems": [
    "Verif.C53_down_partial",
    "Verif.C53_refuted"
   ],
   "note": "Refuted for the dipoles dgamma and dG, whose left-handed index is not rotated. Partial: all other operators without up quarks."
  },
  {
   "property": "C54",
   "status": "proved",
   "theorems": [
    "Verif.C54_restriction",
    "Verif.C54_chain",
    "Verif.C54_validates"
   ],
   "note": "All coefficient sets, all basis listings, all chains."
  },
  {
   "property": "C55",
   "status": "proved",
   "theorems": [
    "Verif.C55_complete",
    "Verif.C55_entries",
    "Verif.C55_once",
    "Verif.C55_addresses",
    "Verif.C55_texts"
   ],
   "note": "Completeness (KeyError exactly if an independent B- and L-conserving coefficient is absent), names, values and addresses of all entries, each parameter exactly once, no place twice in the whole card. The 2500 rows per set are transcribed by a script and proved equal to an independent description."
  },
  {
   "property": "C56",
   "status": "proved",
   "theorems": [
    "Verif.C56_yaml_json"
   ],
   "note": "For every codec that is faithful on the two documents."
  },
  {
   "property": "C57",
   "status": "proved",
   "theorems": [
    "Verif.C57_sm_table",
    "Verif.C57_readable",
    "Verif.C57_order"
   ],
   "note": "Directory listing as a list of parsed documents."
  },
  {
   "property": "C58",
   "status": "proved",
   "theorems": [
    "Verif.C58_only_output"
   ],
   "note": "Both commands, at every crash point."
  },
  {
   "property": "C59",
   "status": "partial",
   "theorems": [
    "Verif.C59_refuted",
    "Verif.C59_partial"
   ],
   "note": "False: an in-place conversion reads an emptied file (witness). Partial: distinct files."
  },
  {
   "property": "C60",
   "status": "proved",
   "theorems": [
    "Verif.C60_rotation"
   ],
   "note": "Every rule of flavor_rotation compared with an independent table of fermion contents."
  },
  {
   "property": "C61",
   "status": "partial",
   "theorems": [
    "Verif.C61_refuted",
    "Verif.C61_partial"
   ],
   "note": "Refuted: uG_10 is stored as uG_13 (index -1) and a short suffix fills a slice. Partial: letters, digits above 3 and suffixes that are too long are rejected."
  },
  {
   "property": "C62",
   "status": "partial",
   "theorems": [
    "Verif.C62_partial",
    "Verif.C62_refuted"
   ],
   "note": "Refuted: m_c at its own scale skips the matching for 3 and 5 flavours (witness). Partial: all other physical requests. RunDec is a parameter with the exactness hypothesis."
  },
  {
   "property": "C63",
   "status": "proved",
   "theorems": [
    "Verif.C63_jms_back"
   ],
   "note": "All JMS coefficient sets; dipole names are egamma_ij."
  },
  {
   "property": "C64",
   "status": "proved",
   "theorems": [
    "Verif.C64_flavour"
   ],
   "note": "All 898 rows of the two data files and the two names treated apart in the code."
  },
  {
   "property": "C65",
   "status": "partial",
   "theorems": [
    "Verif.C65_rotation_partial",
    "Verif.C65_not_rotated",
    "Verif.C65_refuted"
   ],
   "note": "Refuted for dgamma, dG, SuddLL, SduuLL, SduuLR, SdudRL, which are left unrotated. Partial: the other 90 operators."
  },
  {
   "property": "C66",
   "status": "partial",
   "theorems": [
    "Verif.C66_sign_lost",
    "Verif.C66_partial",
    "Verif.C66_refuted"
   ],
   "note": "False: the card has only the magnitude of the flavour-diagonal phil1, phil3, phie, phiq1, phiq3, phiu, phid and (set A) of ee_3333. Partial: all other coefficients are determined, and these up to sign."
  },
  {
   "property": "C67",
   "status": "partial",
   "theorems": [
    "Verif.C67_partial",
    "Verif.C67_refuted"
   ],
   "note": "False: a real coefficient given as {Re: ...} is printed as a complex number. Partial: all entries are real exactly if the real coefficients (except those written by magnitude) are plain numbers."
  },
  {
   "property": "C68",
   "status": "partial",
   "theorems": [
    "Verif.C68_refuted",
    "Verif.C68_partial",
    "Verif.C68_partial_card"
   ],
   "note": "False: in set B the choice of the W mass also changes aS from 0.1181 to 0.1185. Partial: nothing else changes."
  },
  {
   "property": "C69",
   "status": "proved",
   "theorems": [
    "Verif.C69_lagrangian",
    "Verif.C69_dipoles"
   ],
   "note": "All 134 sectors and the dipoles; operators and gamma matrices are written out in Spec/Lagrangian.lean. In sectors with equal first and third flavour the operators 5, 7 and 9 carry P_L."
  },
  {
   "property": "C70",
   "status": "proved",
   "theorems": [
    "Verif.C70_lagrangian",
    "Verif.C70_dipoles"
   ],
   "note": "102 sectors and the dipoles; operators and normalisation in Spec/LagFlavio.lean. flavio has no tensor operators with charged leptons and down quarks, so TedRR is left out on the JMS side."
  },
  {
   "property": "C71",
   "status": "partial",
   "theorems": [
    "Verif.C71_dipoles_up",
    "Verif.C71_dipoles_leptons_partial",
    "Verif.C71_dipoles_leptons_refuted",
    "Verif.C71_lagrangian_partial",
    "Verif.C71_dipoles_partial",
    "Verif.C71_refuted"
   ],
   "note": "Refuted: the crossed colour structure enters with the wrong sign (C2 + C3/2 where the Fierz identity gives C2 - C3/2), so that S8ddRR and S8uuRR are mistranslated for every normalisation of the tensor operators. The left-handed dipole couplings of leptons are refuted as well (ratio of the couplings, compare C47). Partial: equal Lagrangians if these coefficients vanish; all dipole couplings of quarks; right-handed ones of leptons. Not covered: sd nn (C46)."
  },
  {
   "property": "C72",
   "status": "proved",
   "theorems": [
    "Verif.C72_lagrangian",
    "Verif.C72_dipoles",
    "Verif.C72_recovery"
   ],
   "note": "Operators in Spec/LagEos.lean. The four-quark part of EOS is a subset of the JMS operators, so it is stated as recovery. The code takes F_uu + F_cc for c1 and c2, which is the coefficient if the operators contain both quarks with weight one, and half of it for charm quarks alone."
  },
  {
   "property": "C73",
   "status": "partial",
   "theorems": [
    "Verif.C73_relations",
    "Verif.C73_lagrangian_partial",
    "Verif.C73_dipoles_partial",
    "Verif.C73_refuted"
   ],
   "note": "Refuted: if only one of the operators VeeLL_prst and VeeLL_ptsr (or of VnunuLL) is listed, as in a basis without redundancies, the contribution of ll to the other one is dropped and not added to the first. Partial: the Lagrangian is correct if all operators not related by Hermiticity or exchange of bilinears are listed (C73_lagrangian_partial); dipoles are correct without the rotation of down quarks (C73_dipoles_partial, see C65). C73_relations is proved. Baryon-number violating operators are not in this comparison."
  },
  {
   "property": "C74",
   "status": "partial",
   "theorems": [
    "Verif.C74_lagrangian_partial",
    "Verif.C74_refuted",
    "Verif.C74_warsaw_partial"
   ],
   "note": "Refuted: the matching returns tensors that are summed over all flavours, the translator counts operators with two equal bilinears once; operators with four down quarks and different bilinears are too small by 2 relative to all others. Partial: all other processes of the Bern basis."
  },
  {
   "property": "C75",
   "status": "proved",
   "theorems": [
    "Verif.C75_lagrangian"
   ],
   "note": "For the four-fermion processes of flavio; dipoles are in C73 and C70."
  },
  {
   "property": "C76",
   "status": "proved",
   "theorems": [
    "Verif.C76_flavour",
    "Verif.C76_local"
   ],
   "note": "Covariance under field redefinitions for all six translators, and locality for the five with full flavour names. CVLL_sdnn and CVRL_sdnn of FormFlavor are excluded (see C46)."
  },
  {
   "property": "C77",
   "status": "proved",
   "theorems": [
    "Verif.C77_threshold"
   ],
   "note": "Hypotheses on the listings (the basis files are not part of the repository): the smaller listing contains exactly the names without removed fields."
  },
  {
   "property": "C78",
   "status": "partial",
   "theorems": [
    "Verif.C78_text_partial",
    "Verif.C78_text_refuted",
    "Verif.C78_repr"
   ],
   "note": "False for bases that contain a coefficient without data (null), which `validate` accepts: `str` raises TypeError (C78_text_refuted). Proved for all others, with the TypeError as the exact boundary."
  },
  {
   "property": "C79",
   "status": "proved",
   "theorems": [
    "Verif.C79_text",
    "Verif.C79_determines",
    "Verif.C79_repr"
   ],
   "note": "How numbers are written is a parameter; C79_determines supposes that it loses nothing."
  },
  {
   "property": "C80",
   "status": "proved",
   "theorems": [
    "Verif.C80_muon_decay",
    "Verif.C80_unchanged",
    "Verif.C80_products"
   ],
   "note": "The products that are left over are given exactly; C80_products shows that they do not vanish in general."
  },
  {
   "property": "C81",
   "status": "proved",
   "theorems": [
    "Verif.C81_mixing",
    "Verif.C81_exists"
   ],
   "note": "First order in phiWB, for any values of the other coefficients."
  },
  {
   "property": "C82",
   "status": "partial",
   "theorems": [
    "Verif.C82_partial",
    "Verif.C82_named",
    "Verif.C82_scale",
    "Verif.C82_refuted"
   ],
   "note": "False for CAL_mt, CAL_em, CAL_et of FormFlavor: they are divided by the strong instead of the electromagnetic coupling (see C47). C82_partial holds for all other coefficients; C82_scale is the corollary for the scale, C82_named says that the inputs are known for every coefficient returned."
  },
  {
   "property": "C83",
   "status": "partial",
   "theorems": [
    "Verif.C83_registered",
    "Verif.C83_partial",
    "Verif.C83_dipoles",
    "Verif.C83_refuted"
   ],
   "note": "False for 7gammads, 7pgammads, 8gds, 8pgds of the Bern basis, which contain alpha_s and m_b with five flavours. C83_dipoles gives the exact ratio to the expected value. C83_registered identifies the functions registered for these theories."
  },
  {
   "property": "C84",
   "status": "partial",
   "theorems": [
    "Verif.C84_covariant_partial",
    "Verif.C84_jms_partial",
    "Verif.C84_direct_partial",
    "Verif.C84_real_partial",
    "Verif.C84_refuted"
   ],
   "note": "False for the three registered translators within the SMEFT, which ignore the given parameters (C84_refuted; compare C37); C84_direct_partial proves it for the functions they call. C84_covariant_partial supposes non-zero normalisations and complete bases; C84_jms_partial needs neither."
  },
  {
   "property": "C85",
   "status": "proved",
   "theorems": [
    "Verif.C85_lagrangian"
   ],
   "note": "An example with the coefficient of ledq_1131 is in Props/MatchWarsaw.lean."
  },
  {
   "property": "C86",
   "status": "proved",
   "theorems": [
    "Verif.C86_jms",
    "Verif.C86_dipoles",
    "Verif.C86_flavio",
    "Verif.C86_eos"
   ],
   "note": "Down-quark dipoles are excluded because the matching does not rotate them (refuted in C73). The Bern basis from the Warsaw basis is C74_warsaw_partial. Top quarks are not part of WET."
  },
  {
   "property": "C87",
   "status": "partial",
   "theorems": [
    "Verif.C87_lagrangian_partial",
    "Verif.C87_antilepton",
    "Verif.C87_relation",
    "Verif.C87_relation_refuted",
    "Verif.C87_refuted",
    "Verif.C87_rotation_refuted"
   ],
   "note": "The formulas for qqql are right for the contraction e_jk e_mn of isospin only (C87_lagrangian_partial), and wrong for e_jn e_km (C87_refuted), whereas the relation between flavours used to complete coefficient sets holds for e_jn e_km (C87_relation) and not for e_jk e_mn (C87_relation_refuted); so no convention makes both parts of the code right. Left-handed down quarks of these operators are not rotated to their mass basis (C87_rotation_refuted)."
  },
  {
   "property": "C88",
   "status": "proved",
   "theorems": [
    "Verif.C88_phases",
    "Verif.C88_warsaw",
    "Verif.C88_charges",
    "Verif.C88_warsaw_charges",
    "Verif.C88_lepton"
   ],
   "note": "The bosonic coefficients G and Gtilde have no fields and are excluded."
  },
  {
   "property": "C89",
   "status": "partial",
   "theorems": [
    "Verif.C89_lagrangian",
    "Verif.C89_dipoles",
    "Verif.C89_back",
    "Verif.C89_dipoles_back",
    "Verif.C89_refuted"
   ],
   "note": "Equality of the two Lagrangians without the exception is refuted by a tensor coefficient."
  },
  {
   "property": "C90",
   "status": "proved",
   "theorems": [
    "Verif.C90_jms",
    "Verif.C90_jms_real",
    "Verif.C90_jms_unique",
    "Verif.C90_smeft",
    "Verif.C90_smeft_unique",
    "Verif.C90_matching",
    "Verif.C90_lagrangian",
    "Verif.C90_translation"
   ],
   "note": "The hypotheses of the theorems on Lagrangians (C69 to C89) are thereby met by every admissible input; a complete listing with one member of every orbit is given."
  },
  {
   "property": "C91",
   "status": "partial",
   "theorems": [
    "Verif.C91_semileptonic",
    "Verif.C91_charged",
    "Verif.C91_dipoles",
    "Verif.C91_mixing_partial",
    "Verif.C91_muons",
    "Verif.C91_dipoles_formflavor",
    "Verif.C91_refuted"
   ],
   "note": "Everything except the Delta F = 2 scalar operators CSLL and CSRR agrees. These differ by eight times CTLL and CTRR; this is the sign of C71 seen without any convention for the Lagrangian."
  },
  {
   "property": "C92",
   "status": "proved",
   "theorems": [
    "Verif.C92_agree",
    "Verif.C92_path"
   ],
   "note": "The operators of dimension five in Warsaw mass are treated in C36."
  },
  {
   "property": "C93",
   "status": "partial",
   "theorems": [
    "Verif.C93_partial",
    "Verif.C93_neutral",
    "Verif.C93_charged",
    "Verif.C93_refuted"
   ],
   "note": "False for coefficients whose own name is a parameter, such as b->s::c1: only the real part is written (C93_refuted). C93_partial, C93_neutral, C93_charged: coefficients with real and imaginary part in the table are determined, those of charged currents as electron and muon versions if the version without flavour is absent."
  },
  {
   "property": "C94",
   "status": "proved",
   "theorems": [
    "Verif.C94_installed",
    "Verif.C94_import",
    "Verif.C94_round_trip",
    "Verif.C94_match_then_translate",
    "Verif.C94_flavorkit_via_jms",
    "Verif.C94_commands",
    "Verif.C94_match_files"
   ],
   "note": "The libraries for JSON and YAML are assumed to keep the documents at hand (`Faithful`); the listings of the bases are given (`REnv.all`)."
  },
  {
   "property": "C95",
   "status": "proved",
   "theorems": [
    "Verif.C95_names",
    "Verif.C95_active",
    "Verif.C95_validates",
    "Verif.C95_commands"
   ],
   "note": "The listing of the target basis is a hypothesis (the submodule with the bases is absent). Names in EOS and averages in FormFlavor do not mention all fields, so that the statement with fewer flavours is for flavio and Bern, the only ones registered there."
  },
  {
   "property": "C96",
   "status": "proved",
   "theorems": [
    "Verif.C96_table",
    "Verif.C96_export",
    "Verif.C96_determines",
    "Verif.C96_command"
   ],
   "note": "That the translation to EOS returns these names is C95. The target file is not the input file."
  },
  {
   "property": "C97",
   "status": "proved",
   "theorems": [
    "Verif.C97_objects",
    "Verif.C97_files",
    "Verif.C97_registered"
   ],
   "note": "The libraries are assumed to keep the documents that are written. The contents of the bases are hypotheses (the submodule is absent)."
  },
  {
   "property": "C98",
   "status": "proved",
   "theorems": [
    "Verif.C98_condition",
    "Verif.C98_commands"
   ],
   "note": "The libraries are assumed to keep the document that is written. The contents of the EOS basis are a hypothesis (the submodule is absent)."
  },
  {
   "property": "C99",
   "status": "partial",
   "theorems": [
    "Verif.C99_partial",
    "Verif.C99_refuted"
   ],
   "note": "Refuted as stated; the exact condition for success is proved. The libraries are assumed to keep the document that is written. The contents of the basis are a hypothesis (the submodule is absent)."
  },
  {
   "property": "C100",
   "status": "partial",
   "theorems": [
    "Verif.C100_partial",
    "Verif.C100_result",
    "Verif.C100_stdin",
    "Verif.C100_no_value",
    "Verif.C100_eos",
    "Verif.C100_eos_stdin",
    "Verif.C100_eos_no_value",
    "Verif.C100_refuted"
   ],
   "note": "Refuted for `--output` without a value, where the result is lost; the rest is proved. What argparse does with the declarations and messages on the standard error stream are outside the model."
  },
  {
   "property": "C101",
   "status": "proved",
   "theorems": [
    "Verif.C101_message"
   ],
   "note": "The help text is assumed to differ from the message. In contrast to the status (C24), the message is reliable."
  },
  {
   "property": "C102",
   "status": "partial",
   "theorems": [
    "Verif.C102_partial",
    "Verif.C102_no_value",
    "Verif.C102_refuted",
    "Verif.C102_stdin"
   ],
   "note": "Refuted for options without a value and for the warning with the standard input; the exact behaviour is proved in these cases, and the claim in the others. What argparse does with the declarations is outside the model."
  }
 ]
}