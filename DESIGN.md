# Formal model of wcxf-python

The code is read as text in `/repo`; nothing of it is executed. The model is in
Lean 4 with Mathlib under `lean/Verif`. `lake build` in `lean/` checks it.

## Trusted base

* Lean's kernel (4.33.0). Every property theorem depends on no other axioms than
  `propext`, `Classical.choice` and `Quot.sound` (checked with `#print axioms` for each of
  them; some need fewer). No own axiom, no `sorry`, no compiled evaluation
  (`native_decide`, `bv_decide`). Finite tables are checked by kernel reduction
  (`decide`, `decide +kernel`, `rfl`) and lifted to all inputs by a lemma.
* The reading of the Python text as Lean definitions. Every definition of the
  model carries the file and the lines it stands for. Two large pieces of straight-line
  code (the blocks of `translators/wet.py`, the rows of `converters/smeftsim.py`) and the two
  FlavorKit data files were transcribed by a script. The rows of smeftsim and the FlavorKit data
  are in addition proved equal to an independent description.
* The specifications in `Verif/Spec`, which the reader has to agree with.

### Idealisations (each stated again at the definition)

* Python `float`/`complex`/numpy numbers are exact real/complex numbers
  (`ℝ`, `ℂ`). Rounding, infinities and overflow are not modelled. NaN is modelled
  only where the code uses it as a marker (`_scalar2array`). The SMEFTsim model keeps
  the difference between a `float` and a `complex` object, because it decides how a
  number is printed.
* Numbers are not printed digit by digit: a printed number is the number. Texts
  around it are strings.
* A Python dict is an insertion-ordered association list without repeated
  keys (`Verif/Py/Dict.lean`). A `set` is used by the code only for
  membership and difference and is modelled by list membership.
* Exceptions are values of `Except PyErr`; the message is kept where a property
  speaks about it.
* Shared mutable objects are modelled by an explicit heap where sharing is
  observable: the `sectors` dictionaries of bases (`Model/Classes.lean`) and the
  parameter dictionaries of translators and matchers (`Model/ParHeap.lean`).
* Files are modelled as a finite map from paths to contents with the order of
  opening, truncating and writing kept, so that crash points can be spoken about.
  Concurrency and partial writes below the level of one `write` are not modelled.

### What is modelled

| file of /repo | parts | modules |
|----|----|----|
| `wcxf/classes.py` | named instances and their registries, `EFT`, `Basis` (inheritance, `all_wcs`, `validate`, listings), `WC` (numbers, `dict`, `validate`, `translate`, `match`), `Translator`, `Matcher`, the decorators, `load`, `dump`, `_load_yaml_json`, `_yaml_to_json`, `_json_to_yaml`, `_testtex`, the text forms (`repr`, `str`) | Model/Value, Classes, WCOps, History, IO, Tex, Markdown |
| `wcxf/__init__.py` | reading the EFT and basis files at import time; registration of the functions of the package | Model/Import, Install |
| `wcxf/cli.py` | the commands `wcxf`, `wcxf2eos`, `wcxf2smeftsim` after argument parsing, as sequences of file effects with exit status; the standard streams and options without a value | Model/Cli, SmeftsimCli, Streams, SimStreams |
| `wcxf/converters/eos.py`, `yamljson.py`, `smeftsim.py` | everything | Model/Eos, IO, Smeftsim, SmeftsimRow, SmeftsimSetA, SmeftsimSetB |
| `wcxf/util/qcd.py` | everything, with `rundec` as parameter, including the caches | Model/Qcd |
| `wcxf/util/smeftutil.py` | everything | Model/Symm, Smeft |
| `wcxf/translators/smeft.py` | everything | Model/SmeftTrans |
| `wcxf/translators/wet.py` | everything | Model/WetExpr, WetBlocks, WetArray, Wet, FlavorKit, FlavorKitData |
| `wcxf/matchers/smeft.py` | everything | Model/Match |
| `wcxf/translators/__init__.py`, `wcxf/matchers/__init__.py`, `wcxf/parameters.py` | all registered functions and the handling of their parameters | Model/Registered, ParHeap |

### What is not modelled

* `argparse` (the commands start from parsed arguments; that `FileType('w')`
  opens the output while parsing is modelled), the import machinery, logging.
* The JSON and YAML codecs: parameters, with faithfulness on the documents concerned as
  hypothesis. `rundec`, `ckmutil` (CKM matrix, Takagi diagonalisation), LaTeX and
  `pylha`: parameters, hypotheses stated in the theorems.
* The contents of the `wcxf/bases` submodule, which is absent in `/repo`: bases are
  arbitrary listings unless a theorem states a hypothesis about them.
* How Python writes numbers and other data into text (`{}`): a parameter of the text
  forms of `Basis` and `WC`.
* The test files.

## Layout

* `Verif/Py/*` — dictionaries, errors, strings.
* `Verif/Model/*` — the model, file by file.
* `Verif/Spec/*` — independent small specifications.
* `Verif/Lemmas/*` — helper lemmas.
* `Verif/Props/*` — the property theorems (named `Cnn_...`) with a concrete
  case beside each.

## Result per property

Status is the one of `MANIFEST.json`. For a `partial` property the full statement is in
`properties.jsonl`; it is false of the code unless the row says otherwise, its negation is
the theorem named `Cnn_..refuted` and the note says what the partial theorem covers.

| id | status | what is modelled | how it is proved | note |
|----|----|----|----|----|
| C01 Named lookup returns the latest live registration | proved | registries as ordered dicts, operation histories | induction over histories, refinement to the event log | Refinement of the registries against the event log, by induction over histories. For a registry that was never used the exception is AttributeError. |
| C02 Listing of known bases and translators mirrors the registry | proved | `known_bases`, `known_translators` | refinement, equality of lists | Listings equal the live names of the event log in order of registration. |
| C03 A rejected basis definition leaves no trace | partial | `Basis.__init__` with registration before the failure | witness; frame lemma over the heap | False: a rejected definition stays registered (witness). Partial: all other names, older objects and listings are unaffected. |
| C04 Child basis = parent's sectors overridden by its own | proved | heap model of `sectors`, `update` | invariant of reachable states, lookup law of update | Closed form of a child definition in every reachable state. |
| C05 Defining a child basis does not change its parent | partial | same | witness; frame lemma | False: the child updates the dictionary it shares with its parent (witness). Partial: bases with another dictionary are unaffected. |
| C06 The coefficient list of a basis reflects its sectors | partial | cached `all_wcs` | witness; invariant over histories | False after a cached read followed by a child definition (witness). Partial: no read before the last child definition. |
| C07 Package import does not depend on directory order | partial | import loop over file lists | witness; permutation invariance by induction | False: children write into the dictionary of their parent, so coefficient lists depend on the order of the children (witness). Partial: parents are not children, and children of one parent agree on common sectors. |
| C08 Basis validation accepts exactly the consistent bases | proved | `Basis.validate` | case analysis, equivalence with a specification | Equivalence with a specification, including the order of the checks. |
| C09 Coefficient-file validation accepts exactly the known names | proved | `WC.validate` | case analysis, equivalence with a specification | Equivalence with a specification; exceptions characterised. |
| C10 A validated coefficient file can be evaluated | partial | `WC.validate`, `WC.dict` | witness; induction over the values | False: validation does not look at the values (witness). Partial: values that are numbers or Re/Im mappings of numbers. |
| C11 Numbers survive the file representation | proved | `_to_number`, `_to_complex_dict`, `dict2values` | round trip for all numbers | Numbers are exact reals; order of keys included. |
| C12 The numeric dictionary is stable and reflects the values | partial | cached `dict` | witness; invariant over histories | False after modification of values following a read (witness). Partial: modifications before the first successful read. |
| C13 Translation contract | proved | `WC.translate`, `Translator.translate` | case analysis for any function, filter law | Any registered translator function. |
| C14 Matching contract | proved | `WC.match`, `Matcher.match` | same | Any registered matcher function. |
| C15 Dump then load preserves a Wilson coefficient file | proved | `dump`, `load`, `WC.__init__` over a codec | round trip | For every codec that is faithful on the written document. |
| C16 Private attributes never reach a file and private keys in a file cannot corrupt an object | partial | attribute dictionary with private names | document characterised; witness | Written document characterised; reading never changes it. False for the last part: a key _dict in the file replaces the numeric dictionary (witness). Partial: documents without the private cache keys. |
| C17 Unknown output formats are refused without output | proved | `dump` dispatch | case analysis over all strings | All format strings, lower-casing as a function on strings. |
| C18 Format detection on load | proved | `_load_yaml_json` | case analysis over any codec | For every codec; equivalent documents are related by Spec.Same. |
| C19 Dump then load preserves a basis, with or without parent | proved | dump and load of bases on the heap | round trip, idempotence of merging | For every codec that is faithful on the written document. C19_replaced_parent shows what happens if the parent was redefined. |
| C20 EOS parameter file = SM value + new-physics value | proved | `get_eos_np`, `wcxf2eos`, name rewriting on character lists | relational specification, induction over the table | Equivalence with a relational specification; names with Re{..}/Im{..} groups as character lists. |
| C21 EOS conversion refuses lepton-non-universal charged currents | proved | `get_eos_np`, `wcxf2eos`, name rewriting on character lists | relational specification, induction over the table | The exception is raised exactly for non-universal values; stated per name and for the whole table. |
| C22 Failed EOS export leaves the previous parameter file intact | partial | command `wcxf2eos` as file effects | witness; all crash points | False: the output is emptied while the arguments are parsed (witness). Partial: only the target is touched, and what it may contain at every crash point. A run that ends with status 0 has read a valid file. |
| C23 SMEFTsim export touches the output only for valid input, and completes | partial | command `wcxf2smeftsim` as file effects | witness; all crash points, with C55 for completion | False: a valid file that omits zero coefficients ends with KeyError after the output has been emptied (witness). Partial: only the output is touched, and only for valid accepted input; complete card exactly if no coefficient of the card is omitted; contents at every crash point. |
| C24 Exit status reports failure | partial | commands and exit status | witnesses; exact characterisation | False: four witnesses with status 0. Partial: exact characterisation of status 0, including the silent cases. |
| C25 LaTeX check cleans up and always answers | partial | `_testtex` with files and processes | witnesses; case analysis | False: temporary directory left if latex is missing, UnboundLocalError without log (witnesses). Partial: exactly these two cases. |
| C26 LaTeX error excerpt is the first error paragraph | proved | log scanning loop | induction over the lines | Any log, by induction over its lines; the loop is shown to terminate by recursion on the remaining lines. |
| C27 Running parameters reject unphysical requests | partial | `_sane`, `alpha_s`, `m_b`, `m_c`, `m_s` | witnesses; case analysis | False: shortcuts before the checks (witnesses). Partial: away from the shortcuts, and only ValueError is raised. rundec is a parameter. |
| C28 Memoised running is transparent | partial | `lru_cache` with eviction | witness; simulation of the uncached run | False for numbers of flavours passed as 5 and 5.0 (witness). Partial: typed calls, any history, with evictions and exceptions. |
| C29 Symmetrisation produces tensors with the operator symmetries | proved | `symmetrize_*`, `symmetrize`, `C_symm_keys` | assignment lists as data, closed form proved for all tensors from facts the kernel checks over all 81 entries | The assignment lists are data; the closed form of executing them is proved for all tensors, its table facts are checked by the kernel over all 81 entries. C29_symmetrize: whole dictionaries. |
| C30 Symmetrisation keeps tensors that already have the symmetries | proved | `symmetrize_*`, `symmetrize`, `C_symm_keys` | assignment lists as data, closed form proved for all tensors from facts the kernel checks over all 81 entries | Tensors, matrices and whole dictionaries. |
| C31 Only non-redundant entries matter | proved | `symmetrize_*`, `symmetrize`, `C_symm_keys` | assignment lists as data, closed form proved for all tensors from facts the kernel checks over all 81 entries | The independent entries determine the completion (C31_tensor, C31_matrix) and are free (.._free). |
| C32 Flavour rotations preserve the operator symmetries | proved | `flavor_rotation` | finite sums, for arbitrary matrices | Arbitrary matrices; every relation of the operator table. |
| C33 Flavour rotations compose and invert | proved | same | same | Composition as equality of dictionaries, inverse for any left inverse per field. |
| C34 Warsaw -> Warsaw up -> Warsaw is the identity | proved | `warsaw_to_warsaw_up`, `warsaw_up_to_warsaw` | composition of C33, C35 and C30 | C34_round_trip: also when the intermediate set is stored as any equivalent dictionary. CKM matrix is a parameter with unitarity as hypothesis, basis listings are parameters. |
| C35 Array form and flat form are inverse to each other | proved | `wcxf2arrays`, `arrays2wcxf`, `smeft_toarray`, `smeft_fromarray` | two-sided inverse by induction over the listing | Both directions and the KeyError condition (C35_unknown, C35_known). |
| C36 Warsaw mass translation touches only what it must | proved | `warsaw_to_warsawmass` | frame condition and values | Takagi diagonalisation is a parameter (its singular values); frame condition and exact values of the changed operators. |
| C37 User parameters are honoured | partial | registered functions | witness; case analysis over the registrations | Refuted: the three registered translators within the SMEFT do not pass on `parameters` (translators/__init__.py), with a witness whose result differs. Partial: all other registered translators, all registered matchers, and the three functions of translators/smeft.py called directly. |
| C38 Default parameters are never modified | proved | heap of parameter dictionaries | simulation over histories of calls | Heap model: parameter dictionaries are mutable objects, the default object is shared between all calls. Any history of calls (default, fresh or user-owned parameter objects) leaves the default object as it was, and each call answers as the pure model does. |
| C39 JMS completion fills every redundant entry | partial | `_JMS_to_array`, `_symm_herm`, `_symm_current`, `_scalar2array` | witness; orbit argument | Refuted for redundant listings (two members of one orbit with unrelated values). Partial: values kept, absent = 0, every entry determined, relations hold for one member per orbit. |
| C40 JMS -> flavio equals JMS -> Bern -> flavio | proved | JMS, Bern, flavio blocks | blocks as expressions; equality of rational expressions checked symbolically by the kernel, lifted to all values | All JMS coefficient sets; the intermediate dictionary may drop zeros. |
| C41 flavio -> Bern -> flavio is the identity | partial | same | blocks as expressions; equality of rational expressions checked symbolically by the kernel, lifted to all values | Refuted: the flavio coefficients of s -> d nu nu (produced by Bern_to_flavio) are lost (witness). Partial: all other flavio coefficients. |
| C42 Bern -> flavio -> Bern keeps the operators known to flavio | proved | same | blocks as expressions; equality of rational expressions checked symbolically by the kernel, lifted to all values | Exact statement: kept coefficients, the tensor part of 7 and 7p becomes zero (16 times 9 and 9p remain), everything else zero. |
| C43 Translations are linear | proved | all WET translators | linearity of expressions | flavio, Bern, EOS, FormFlavor (C43_linear) and FlavorKit (C43_flavorkit) translators, parameters without division by zero. |
| C44 Absent coefficients count as zero | proved | same | reads of absent keys | flavio, Bern, EOS, FormFlavor (C44_absent_zero: equal outputs; C44_zero) and FlavorKit (C44_flavorkit: equal up to zero entries) translators. |
| C45 Translations are total on complete bases | proved | same | definedness of every read and every denominator | flavio, Bern, EOS, FormFlavor and FlavorKit translators for parameters without division by zero; C45_parameters: when the parameters can be evaluated. |
| C46 FormFlavor s->d neutrino coefficient | partial | FormFlavor | witness; closed form | Refuted: the b-d entries are read (index s-1 = -1, last update wins). Partial: flavour average of those entries. |
| C47 Left/right mirror symmetry of FormFlavor dipoles | partial | FormFlavor | witness; closed form | Refuted: left-handed lepton dipoles are divided by g_s. Partial: quarks, and what leptons give. |
| C48 FlavorKit -> JMS -> FlavorKit is the identity | partial | FlavorKit translators and data | table facts lifted to all coefficient sets; witness | Identity proved for all coefficient sets of the basis; unknown names raise ValueError unless they start with K2R_. Refuted for K2R_ names with a flavour other than 1-3: UnboundLocalError, or a silently wrong lepton mass after another dipole. |
| C49 The Standard Model matches to nothing | proved | `match_all_array`, `match_all`, registered matchers | rules as expressions; homogeneity, composition with C34; witness where refuted | All parameters, all all-zero inputs; existence of the result for physical electroweak parameters. |
| C50 Matched coefficients belong to the WET JMS basis | proved | `match_all_array`, `match_all`, registered matchers | rules as expressions; homogeneity, composition with C34; witness where refuted | From Warsaw and Warsaw up, for every listing of the JMS basis; result validates. |
| C51 Matching from Warsaw = translate to Warsaw up, then match | partial | `match_all_array`, `match_all`, registered matchers | rules as expressions; homogeneity, composition with C34; witness where refuted | Refuted: the registered Warsaw to Warsaw up translator ignores the parameters (witness with a CKM matrix depending on Vus). Partial: parameters with the default CKM matrix. |
| C52 Matching to flavio/EOS/Bern = matching to JMS, then translate | proved | `match_all_array`, `match_all`, registered matchers | rules as expressions; homogeneity, composition with C34; witness where refuted | All inputs, all parameters, equality including exceptions; translators as modelled. |
| C53 CKM elements cancel for down-quark operators | partial | matching rules, `rotate_down` | witness; unitarity, finite sums | Refuted for the dipoles dgamma and dG, whose left-handed index is not rotated. Partial: all other operators without up quarks. |
| C54 Flavour-threshold matching is a restriction | proved | threshold matchers | filter laws | All coefficient sets, all basis listings, all chains. |
| C55 SMEFTsim card entries are complete and correctly addressed | proved | both SMEFTsim cards, filling, text | rows proved equal to an independent description by kernel certificates; induction over rows | Completeness (KeyError exactly if an independent B- and L-conserving coefficient is absent), names, values and addresses of all entries, each parameter exactly once, no place twice in the whole card. The 2500 rows per set are transcribed by a script and proved equal to an independent description. |
| C56 YAML/JSON conversion keeps the data | proved | `convert_json`, `convert_yaml` | for any codec | For every codec that is faithful on the two documents. |
| C57 SM table read from the EOS directory | proved | `get_sm_wcs` | induction over the directory | Directory listing as a list of parsed documents. |
| C58 Command line tools change nothing but their output file | proved | all three commands as file effects | frame lemma at all crash points | Both commands, at every crash point. |
| C59 Conversion in place equals conversion to another file | partial | `wcxf convert` with equal paths | witness; case analysis | False: an in-place conversion reads an emptied file (witness). Partial: distinct files. |
| C60 Flavour rotations follow the field content | proved | `flavor_rotation` rules | comparison with an independent field table, lifted | Every rule of flavor_rotation compared with an independent table of fermion contents. |
| C61 Malformed index suffixes are rejected | partial | `smeft_toarray` index parsing | witness; induction over the suffix | Refuted: uG_10 is stored as uG_13 (index -1) and a short suffix fills a slice. Partial: letters, digits above 3 and suffixes that are too long are rejected. |
| C62 Running parameters follow one trajectory through the thresholds | partial | running functions over an abstract flow | witness; flow property | Refuted: m_c at its own scale skips the matching for 3 and 5 flavours (witness). Partial: all other physical requests. RunDec is a parameter with the exactness hypothesis. |
| C63 JMS -> FlavorKit -> JMS keeps exactly the shared coefficients | proved | FlavorKit translators | table facts lifted | All JMS coefficient sets; dipole names are egamma_ij. |
| C64 FlavorKit coefficients go to the JMS entry with their flavours | proved | FlavorKit data | kernel check of all rows against the specification | All 898 rows of the two data files and the two names treated apart in the code. |
| C65 The CKM rotation acts on every left-handed down-quark index | partial | `rotate_down` | witness; every rule against an independent table | Refuted for dgamma, dG, SuddLL, SduuLL, SduuLR, SdudRL, which are left unrotated. Partial: the other 90 operators. |
| C66 The SMEFTsim card determines the coefficients | partial | SMEFTsim cards | witness; reconstruction | False: the card has only the magnitude of the flavour-diagonal phil1, phil3, phie, phiq1, phiq3, phiu, phid and (set A) of ee_3333. Partial: all other coefficients are determined, and these up to sign. |
| C67 All entries of the SMEFTsim card are real numbers | partial | SMEFTsim cards, float or complex | witness; equivalence | False: a real coefficient given as {Re: ...} is printed as a complex number. Partial: all entries are real exactly if the real coefficients (except those written by magnitude) are plain numbers. |
| C68 The input scheme changes only its own parameters in the SMEFTsim card | partial | SMEFTsim card texts | witness; equality of the remaining rows | False: in set B the choice of the W mass also changes aS from 0.1181 to 0.1185. Partial: nothing else changes. |
| C69 JMS to Bern describes the same Lagrangian | proved | JMS and Bern Lagrangians, `JMS_to_Bern` | gamma matrices over the Gaussian integers checked by the kernel for all spinor indices, Fierz and colour identities, one polynomial identity per class of operators | All 134 sectors and the dipoles; operators and gamma matrices are written out in Spec/Lagrangian.lean. In sectors with equal first and third flavour the operators 5, 7 and 9 carry P_L. |
| C70 JMS to flavio describes the same Lagrangian | proved | JMS and flavio Lagrangians, `JMS_to_flavio` | as C69, with the normalisation of flavio | 102 sectors and the dipoles; operators and normalisation in Spec/LagFlavio.lean. flavio has no tensor operators with charged leptons and down quarks, so TedRR is left out on the JMS side. |
| C71 JMS to FormFlavor describes the same Lagrangian | partial | JMS and FormFlavor Lagrangians, `JMS_to_FormFlavor` | as C69; refuted by a colour-octet scalar coefficient, for every normalisation of the tensor operators | Refuted: the crossed colour structure enters with the wrong sign (C2 + C3/2 where the Fierz identity gives C2 - C3/2), so that S8ddRR and S8uuRR are mistranslated for every normalisation of the tensor operators. The left-handed dipole couplings of leptons are refuted as well (ratio of the couplings, compare C47). Partial: equal Lagrangians if these coefficients vanish; all dipole couplings of quarks; right-handed ones of leptons. Not covered: sd nn (C46). |
| C72 JMS to EOS describes the same Lagrangian | proved | JMS and EOS Lagrangians, `JMS_to_EOS` | as C69; the four-quark coefficients from four components per quark flavour | Operators in Spec/LagEos.lean. The four-quark part of EOS is a subset of the JMS operators, so it is stated as recovery. The code takes F_uu + F_cc for c1 and c2, which is the coefficient if the operators contain both quarks with weight one, and half of it for charm quarks alone. |
| C73 The matching from SMEFT to WET preserves the effective Lagrangian | partial | Warsaw and JMS operators with Dirac, colour and isospin structure, Z and W currents, `match_all` | both sides as sums of antisymmetrised operators; Fierz identity of vector currents, colour rearrangement and Hermiticity for the comparison of 57 formulas; the rotation commutes with antisymmetrisation; refuted by ll_1331 with a list without Fierz-redundant operators | Refuted: if only one of the operators VeeLL_prst and VeeLL_ptsr (or of VnunuLL) is listed, as in a basis without redundancies, the contribution of ll to the other one is dropped and not added to the first. Partial: the Lagrangian is correct if all operators not related by Hermiticity or exchange of bilinears are listed (C73_lagrangian_partial); dipoles are correct without the rotation of down quarks (C73_dipoles_partial, see C65). C73_relations is proved. Baryon-number violating operators are not in this comparison. |
| C74 Matching and translation to Bern preserve the effective Lagrangian | partial | as C73 and C69 | composition of C73 and C69; the two normalisations of the JMS Lagrangian agree on processes without repeated bilinears; refuted by two coefficients of the operator dd | Refuted: the matching returns tensors that are summed over all flavours, the translator counts operators with two equal bilinears once; operators with four down quarks and different bilinears are too small by 2 relative to all others. Partial: all other processes of the Bern basis. |
| C75 Matching and translation to flavio preserve the effective Lagrangian | proved | as C73 and C70 | composition of C73 and C70; all flavio processes are free of the problem of C74, and the matching gives no down-quark lepton tensors | For the four-fermion processes of flavio; dipoles are in C73 and C70. |
| C76 Translations conserve flavour | proved | the six translators; names of coefficients read as lists of fields | for every expression the entries it reads with their complex conjugations; composition of tables on these lists; kernel check of all entries of the closed, parameter-free lists; completion of the JMS tensors respects flavour | Covariance under field redefinitions for all six translators, and locality for the five with full flavour names. CVLL_sdnn and CVRL_sdnn of FormFlavor are excluded (see C46). |
| C77 Flavour thresholds commute with translations | proved | the restricting matchers and four translators, listings of bases as parameters | C76 with factors 0 and 1 | Hypotheses on the listings (the basis files are not part of the repository): the smaller listing contains exactly the names without removed fields. |
| C78 The text form of a basis lists exactly its contents | partial | the three methods on strings, with all their exceptions; formatting of data other than strings is a parameter | an independent reader of the text, line by line; the text is a sequence of complete lines; induction over sectors and rows; negation with a witness | False for bases that contain a coefficient without data (null), which `validate` accepts: `str` raises TypeError (C78_text_refuted). Proved for all others, with the TypeError as the exact boundary. |
| C79 The text form of a coefficient object determines it | proved | the two methods on strings; formatting of numbers is a parameter | an independent reader of the text, line by line | How numbers are written is a parameter; C79_determines supposes that it loses nothing. |
| C80 Muon decay in the matching from SMEFT to WET | proved | Match.lean (`vT`, `wl`, `znu`, `zel`, rule for `VnueLL`). | The returned coefficient is evaluated from the matching conditions (`getD_matched`); `vev_sq` inverts the vacuum expectation value, using that ll_1221 and the diagonal of phil3 are real by their relations, and the linear terms cancel. Cases: `exGF_case` (ll_1221 shifts the Fermi constant), `C80_products` (phil1_12 gives a non-zero value). | The products that are left over are given exactly; C80_products shows that they do not vanish in general. |
| C81 Mixing of photon and Z in the matching from SMEFT to WET | proved | Match.lean (`eps`, `g1b`, `sb`, `cb`, `eb`, `gzb`, matching conditions). The exact mixing is in Spec/Mixing.lean. | From the conditions on photon and Z the products of couplings in Z exchange are found in closed form (`mixing_products`, `mixing_g1`); value and derivative at zero are computed for them and for the formulas of the matching (`exact_jet`, `code_jet`); Z exchange is linear in these products (`zForm_split`), and C73 relates the returned coefficients to it. Cases: `C81_exists` (exact solutions exist for every mixing below one), `exWB_case` (all hypotheses for the default parameters). | First order in phiWB, for any values of the other coefficients. |
| C82 Which parameters a translated WET coefficient depends on | partial | The six translators (Model/Wet.lean, Model/WetBlocks.lean) and `get_parameters`; the inputs of every name are stated in Spec/Inputs.lean from the definition of the operators, by splitting the name into operator and flavours. | Two tables agree at a name if their expressions agree for all coefficients (`Agr`, Lemmas/Inputs.lean). The normalisation factors are compared parameter by parameter, the tables entry by entry (Lemmas/InputsBlk.lean), and composition, update and overall factors preserve agreement. Completeness: every name returned has its inputs listed (finite check of all names). | False for CAL_mt, CAL_em, CAL_et of FormFlavor: they are divided by the strong instead of the electromagnetic coupling (see C47). C82_partial holds for all other coefficients; C82_scale is the corollary for the scale, C82_named says that the inputs are known for every coefficient returned. |
| C83 Parameters of the theories with four and three flavours | partial | `get_parameters` with a free number of flavours (the code passes 5 everywhere), the four translators registered for these theories, the table of registered translators. | Parameters that do not run are the same for every number of flavours (`penv_fixed`); by C82 and a check of all names, only the d s dipoles among the coefficients without bottom quarks depend on a running parameter. Their values are computed from the tables. | False for 7gammads, 7pgammads, 8gds, 8pgds of the Bern basis, which contain alpha_s and m_b with five flavours. C83_dipoles gives the exact ratio to the expected value. C83_registered identifies the functions registered for these theories. |
| C84 Conjugation of coefficients and sign of the CKM phase | partial | The tables of registered translators and matchers (Model/Registered.lean) with everything they call. `ckmutil` is any function whose matrix is conjugated when gamma changes sign, the singular values are any function that is the same for a matrix and its conjugate. | Conjugation commutes with every step: reading arrays, symmetrising, rotating and writing (Lemmas/CpSmeft.lean), all rules of the matching and the rotation of down quarks (Lemmas/CpMatch.lean), every entry of the tables between WET bases with its normalisation factor (Lemmas/CpWet.lean), and both loops of FlavorKit. | False for the three registered translators within the SMEFT, which ignore the given parameters (C84_refuted; compare C37); C84_direct_partial proves it for the functions they call. C84_covariant_partial supposes non-zero normalisations and complete bases; C84_jms_partial needs neither. |
| C85 Semileptonic effective Lagrangian in the matching from SMEFT to WET in the EOS basis | proved | match_all (Model/Match.lean) and JMS_to_EOS (Model/Wet.lean) as called by the registered matcher; operators of EOS in Spec/LagEos.lean, the tree-level SMEFT Lagrangian in Spec/MatchLag.lean. | Composition of the matching theorem behind C73 with C72; processes of EOS contain down quarks and leptons, so the two normalisations of the JMS Lagrangian agree. | An example with the coefficient of ledq_1131 is in Props/MatchWarsaw.lean. |
| C86 Effective Lagrangian in the matching from the Warsaw basis to WET | proved | The registered matchers from the Warsaw basis (Model/Registered.lean: translation to Warsaw up, match_all, translation of WET bases). Spec/FlavRot.lean: flavour rotations of the SMEFT multiplets and of the fields of the effective Lagrangian. | Flavour covariance: rotating the SMEFT coefficients by unitary matrices of the five multiplets rotates the couplings of Z, W and the contact terms and thus the tree-level Lagrangian (Lemmas/FlavRot.lean, tree_rot, for all unitary matrices); the translation to Warsaw up is such a rotation (C86 lemma up_full); then C73, C75, C85. The rotation of the down quarks in the matching cancels the one of the doublets. | Down-quark dipoles are excluded because the matching does not rotate them (refuted in C73). The Bern basis from the Warsaw basis is C74_warsaw_partial. Top quarks are not part of WET. |
| C87 Operators that violate baryon number in the matching from SMEFT to WET | partial | The matching formulas for the operators with three quarks (Model/Match.lean). Spec/Bnv.lean: charge conjugation matrix, colour and isospin tensors, monomials of four fields and their antisymmetrised matrix elements. | The antisymmetrised matrix element of a product of two bilinears is symmetric under exchange of the fields of one bilinear, and satisfies the Fierz identity for three fields of the same chirality (Lemmas/Bnv.lean, proved for all tensors); expanding the isospin contraction of the SMEFT operators then gives the formulas. The refutations evaluate both sides for a single coefficient. | The formulas for qqql are right for the contraction e_jk e_mn of isospin only (C87_lagrangian_partial), and wrong for e_jn e_km (C87_refuted), whereas the relation between flavours used to complete coefficient sets holds for e_jn e_km (C87_relation) and not for e_jk e_mn (C87_relation_refuted); so no convention makes both parts of the code right. Left-handed down quarks of these operators are not rotated to their mass basis (C87_rotation_refuted). |
| C88 Field phases and conserved charges in the matching from SMEFT to WET | proved | The whole matching (Model/Match.lean), including the shifts of the W and Z couplings and the rotation of the down quarks. Spec/Charge.lean: multiplet of every WET fermion, factor and charge of a coefficient. | Every formula is built from operations under which tensors with given phases are closed (Lemmas/Phase.lean, one rule per operation); muon decay and photon-Z mixing involve neutral coefficients only; the rotated indices belong to quark doublets, where phases commute with the rotation. Charges: phases exp(i pi q / n) give a factor -1 to coefficients of charge n. The last step uses the flavour conservation of the WET translators (C76). | The bosonic coefficients G and Gtilde have no fields and are excluded. |
| C89 Bern_to_flavio and flavio_to_Bern describe the same Lagrangian | partial | The translators and their tables (Model/Wet.lean, Model/WetBlocks.lean). Spec/Lagrangian.lean and Spec/LagFlavio.lean: operators of the two bases with Dirac and colour structure; Spec/LagTensor.lean: the tensor operators that the flavio basis lacks. | Sector by sector: identities between products of gamma matrices reduce both sides to the same components (Lemmas/LagBernFlavio.lean). The way back follows from the round trip (C41) and from the absence of a tensor part in the returned coefficients. | Equality of the two Lagrangians without the exception is refuted by a tensor coefficient. |
| C90 Which coefficient sets determine an effective Lagrangian | proved | JMS_to_array, the translation to flavio, wcxf2arrays, symmetrize and match_all as in C39, C70, C31 and C73. Spec/Full.lean: contradictions between listed coefficients and the names of real coefficients. | Ties between entries form an equivalence relation with signs of conjugation, along which values are transported; for the Warsaw basis the completed arrays of the model have the relations and keep the independent entries (C31). Dropping the imaginary parts leaves the completed arrays unchanged. | The hypotheses of the theorems on Lagrangians (C69 to C89) are thereby met by every admissible input; a complete listing with one member of every orbit is given. |
| C91 EOS, FormFlavor and flavio coefficients of the same operators agree | partial | JMS_to_EOS, JMS_to_FormFlavor and JMS_to_flavio as in C70 to C72. The names of corresponding coefficients are part of the statements. | The closed forms of the three translators are evaluated at the names in question and compared; no assumption on the coefficients is needed. The last sentence is refuted by S8ddRR_2323: CSLL and CSRR differ by eight times the tensor coefficient, because the FormFlavor table has the opposite sign. | Everything except the Delta F = 2 scalar operators CSLL and CSRR agrees. These differ by eight times CTLL and CTRR; this is the sign of C71 seen without any convention for the Lagrangian. |
| C92 The Warsaw, Warsaw up and Warsaw mass bases agree where their definitions do | proved | warsaw_to_warsawmass, warsaw_to_warsaw_up and warsaw_up_to_warsaw as in C34 and C36, with the CKM matrix and the singular values as parameters. Spec/Full.lean: operators without quark doublets. | The tensors of the input exist by C90 and are rotated by the CKM matrix as in C86; the rotation is evaluated on operators without quark doublets (identity) and with one (a matrix product), and compared with C36. | The operators of dimension five in Warsaw mass are treated in C36. |
| C93 The EOS parameter file determines the coefficients | partial | `wcxf2eos`, `get_eos_np` | equal files give equal contributions for every row (C20), real and imaginary part together give the value; witness for the refutation | False for coefficients whose own name is a parameter, such as b->s::c1: only the real part is written (C93_refuted). C93_partial, C93_neutral, C93_charged: coefficients with real and imaginary part in the table are determined, those of charged currents as electron and muon versions if the version without flavour is absent. |
| C94 The installed package: translation there and back, and matching in one or two steps, on objects and on files | proved | registrations at import (`importOps`), `WC.translate`, `WC.match`, `dump`, `WC.load`, the commands | the names registered at import are distinct and loading EFTs and bases does not touch them (invariant of histories); composition of C34, C44, C52, C15 and C59 | The libraries for JSON and YAML are assumed to keep the documents at hand (`Faithful`); the listings of the bases are given (`REnv.all`). |
| C95 WET translations return the coefficients of the target basis, so that translated files are valid | proved | the WET translators, their registration, `WC.translate`, `WC.validate`, `dump`, `WC.load`, the commands | closed form of the translators: the names of the tables are a permutation of explicit lists (inclusion by class of operators, no duplicates, equal length); the vanishing of inactive coefficients from the covariance of C76 with a rephasing by 0 or 1; composition with C09, C15, C94 | The listing of the target basis is a hypothesis (the submodule with the bases is absent). Names in EOS and averages in FormFlavor do not mention all fields, so that the statement with fewer flavours is for flavio and Bern, the only ones registered there. |
| C96 With the tables of the package, the EOS export contains every coefficient of the EOS basis, and fails only for non-universal charged currents | proved | `get_sm_wcs`, `wcxf2eos`, the two tables in `wcxf/data`, the command `wcxf2eos` | the names of the tables by kernel computation; the contribution of each parameter from the characterisation of C20 and C21; injectivity from the parts; composition with C22 | That the translation to EOS returns these names is C95. The target file is not the input file. |
| C97 In the installed package, flavour thresholds and translations can be done in either order, also through files | proved | the registrations, `WC.translate`, `WC.match`, the WET translators and threshold matchers, `dump`, `WC.load`, the commands | C77 for the functions, with the names returned by the translators from C95 in place of its hypothesis on them; dropped zeros do not matter by C44; composition with C94 and C15 | The libraries are assumed to keep the documents that are written. The contents of the bases are hypotheses (the submodule is absent). |
| C98 A WET file in the JMS basis can be exported to EOS with two commands exactly if its b -> u l nu coefficients are lepton universal | proved | the registrations, `WC.translate`, `JMS_to_EOS`, `dump`, `WC.load`, `WC.validate`, `get_sm_wcs`, `wcxf2eos`, both commands | the translated charged currents are a common nonzero factor times the conjugate of the JMS ones, so the condition of C96 becomes one on the input; composition with C94, C95, C15, C59 and C96 | The libraries are assumed to keep the document that is written. The contents of the EOS basis are a hypothesis (the submodule is absent). |
| C99 A Warsaw file translated to Warsaw mass can be exported to SMEFTsim | partial | the registrations, `WC.translate` (with the filter for zeros), `warsaw_to_warsawmass`, `dump`, `WC.load`, `WC.validate`, the card, both commands | False: the translation drops zeros and the export needs every coefficient (witness: a file with one coefficient; the old output is lost). Proved instead: the second command succeeds exactly if all coefficients of the card are nonzero after the rotation of the up quarks, and otherwise leaves an empty output; composition of C36, C94, C15, C59, C23 and C55 | Refuted as stated; the exact condition for success is proved. The libraries are assumed to keep the document that is written. The contents of the basis are a hypothesis (the submodule is absent). |
| C100 Standard streams and named files carry the same data | partial | the streams selected by the two arguments, the text on the standard output (results, messages, help), the two commands; with named files the model refines the one of C22 and C24 | False: `--output` without a value is `None`; the subcommands of `wcxf` then drop the result and end with status 0 (witness: a conversion; proved for every input), and `wcxf2eos` never ends with status 0. Proved instead: both streams, for the option omitted, `-` or with a file name; case analysis on the streams and the lemmas on file actions | Refuted for `--output` without a value, where the result is lost; the rest is proved. What argparse does with the declarations and messages on the standard error stream are outside the model. |
| C101 The message of validate is exact | proved | `validate`, the text on the standard output, loading and validation of the three types | Case analysis on the type, the result of loading and the result of validation; the specification is the one of C24 | The help text is assumed to differ from the message. In contrast to the status (C24), the message is reliable. |
| C102 Options of wcxf2smeftsim without a value and its standard input | partial | the values of the options (omitted, without a value, given), the standard input, the warning, the command; the converters for missing values | False: an option without a value is `None`; for a valid file the command then always ends with an exception, and unless `--output` is concerned the output file is emptied first (proved for every combination of options; witness: `--input-scheme`). For another basis than 'Warsaw mass' on the standard input the warning cannot be answered (`EOFError`). Proved instead: the defaults for omitted options, by reduction to C23, when the warning is printed, and the standard input for files in the basis 'Warsaw mass' | Refuted for options without a value and for the warning with the standard input; the exact behaviour is proved in these cases, and the claim in the others. What argparse does with the declarations is outside the model. |

## Testing the theorems against wrong programs

Each attempt copies the project, changes one definition of the model the way a
programming error would, and rebuilds the modules of the properties in the claim (not
the whole project). `seeded/LOG.jsonl` has one line per attempt
(212 so far): the definition, the edit, the claim it breaks, the theorems that failed
and those that were tightened because they had survived. If a lemma fails, the property
theorems that depend on it are not built; the log then names the lemma.
