# Formal model of klayout-pex in Lean 4

This directory contains a machine-checked model of parts of klayout-pex (`/repo`, Python) and proofs of the
properties listed in `properties.jsonl`.  `MANIFEST.json` maps every property to the theorems that carry it.

## Method

* Every Python function that is modelled becomes a small total Lean function; its doc comment cites the file
  and the lines and states each simplification.
* Python exceptions are values (`Except`/`Option`); dictionaries are insertion-ordered association lists
  (`Verif/Common/PyDict.lean`), loops are folds or structural recursions.
* Floating point numbers are modelled by exact numbers: `ℚ` where the code only uses + - * / and comparisons,
  `ℝ` where it uses `atan`/`sqrt`.  Rounding errors, NaN and infinities are outside of the model.
* KLayout objects (`kdb.Region`, `kdb.Netlist`, …) are external.  A region is modelled point-wise: the model runs
  for one arbitrary point of the plane and a region is the Boolean "this point is inside"; all region operators used
  by the code (`+ - & dup`) are point-wise Boolean operators, so a statement for an arbitrary point is a statement
  about the regions (up to measure-zero boundaries).  Where areas matter, regions are finite sets of unit cells.
* For each area there are `Model.lean` (code), `Lemmas.lean` (helper lemmas), `Props.lean` (small independent
  specification, property theorems, non-vacuity examples).
* If the code violates a property, the negation is proved on a concrete witness (`…_fails`/`…_counterexample`) and
  the provable remainder is a theorem with suffix `_partial`.

## Trusted base

* Lean 4.33.0 kernel, and the standard axioms `propext`, `Classical.choice`, `Quot.sound` (checked with
  `#print axioms`, see section *Axioms*). No further axioms, no `sorry`, no `native_decide`/`bv_decide`.
* Mathlib definitions used in statements (`ℚ`, `ℝ`, `Finset.sum`, `Matrix`, `Real.arctan`, `List.Perm` …).
* The faithfulness of the models to `/repo` — established only by reading; citations are given at every definition.
* The assumptions on external components that are listed below for each area.

## Plan per property

| id | area / module | what is modelled | how it is proved |
|----|----|----|----|
| C01–C04 | `Summary` | `add_*`, `summarize`, `merged`, `normed`, R tables | fold invariants: value of a pair in a table = sum over history; permutation invariance; key invariants; counterexample for parallel resistors |
| C05, C51 | `Rcx25Netlist` | `RCX25NetlistExpander.expand`, CSV rows of `run_kpex_2_5d_engine` | refinement to a list of expected devices; counterexamples for the unit and for the duplicated net |
| C06 | `PexMode` | mode table and the extraction skeleton | case analysis + induction over cells |
| C07, C08 | `Maxwell` | `NetlistExpander.expand` loops | nodal matrix of emitted devices computed by sums over index ranges |
| C09, C10 | `CapMatrix` | averaging loops, CSV text | loop invariant over index pairs; string split/join round trip |
| C11, C12 | `SolverLog` | log parsers incl. Python negative indexing | index arithmetic, induction over log; counterexamples for truncated logs and units |
| C13, C52 | `Reduce` | `NetlistReducer.reduce`, `NetlistCSVWriter.write_csv` | list filter refinement, fold invariants |
| C53 | `Pipeline` | composition of log parser, averaging, expansion, CSV | composition of the theorems of the parts |
| C14–C17 | `Sweep` | `generate`, `_merge_events`, `finish_z` point-wise | induction over layers / heights / material list; counterexample for the spurious interface |
| C18 | `Sweep` | `next_z`, edges as pairs of neighbouring cells | induction over material list and heights |
| C19, C54 | `Finalize` | `finalize`, `Triangle`, `generate_h*`, `triangulate` point conversion | dictionary invariants, real algebra |
| C20, C21 | `ListFile` | `write_fastcap` | numbering invariants; decimal number prefix injectivity; counterexample for long names |
| C22 | `Stack3d` | `FasterCapInputBuilder.build` up to `generate`, stack functions of `TechInfo`; the sidewall loop takes a number of rounds | a chain never repeats a layer if names are distinct; non-termination for a repeated name |
| C55–C58 | `Stack3d` | the same, composed with the builder of `Sweep` | the loop follows the chain of wrapping dielectrics; every point is in the slab of the last metal below it |
| C23–C27, C50 | `RNet` | `ResistorNetwork`, `Conductance` with object identity | invariant over op lists; star-mesh as Schur complement over a field; measure for `eliminate_all`; cuts at equal voltage bound the conductance of a star from below; error bound for tiny stars via the power form (`RNet/Graph`, `RNet/Bound`) |
| C28 | `Skinny` | `is_skinny_tri`, `expand_skinny_tris` | algebra over ℚ; counterexample for the third rotation |
| C29, C62–C64 | `RRequest` | technology description, its conversion for KLayout (`RRequest/Handover`), `prepare_request`, inputs and results of the resistor extractor (the extractor is a parameter) | the request as a list of additions, partition by filter; counterexamples for split layers and vias without contact |
| C30, C31 | `Overlap` | `neighbors` over finite cell sets | induction over layers; counterexample for missing specification |
| C32–C35, C59 | `Fringe` | sidewall and fringe formulas, emission loops, nearest edge, lateral and vertical shielding, loop over edges | real analysis (`Real.arctan`), fold invariants over intervals of integers; counterexample for the early return |
| C36 | `LvsCache` | `create_lvsdb` over a file-system state machine (files with contents and modification times, runs, edits, `touch`, removal) | induction over histories; a run only reuses a database written from the same files if nothing interferes; counterexamples for the stale cases |
| C37 | `CliArgs` | `validate_args` and the argument namespace it leaves behind | exact characterisation of the accepted command lines |
| C38, C39 | `Options` | `true_or_false`, `MultipleChoicePattern` | string case analysis, list induction |
| C40, C41 | `Rdb` | `parse_category_path`, `repair_rdb_xml` | automaton induction, tree induction |
| C42–C44 | `TechInfo` | lookup tables, conversions | fold invariants |
| C65, C66 | `Engine25` | the layers of the cell, then overlap, edges, PEX mode, summary and netlist put together; KLayout's merging and neighbourhoods are a parameter with stated assumptions | fold invariant for the layers; composition of the theorems of `Overlap`, `Fringe`, `PexMode`, `Summary`, `Rcx25Netlist`, areas as cardinalities of cell sets; edges and what is seen from them as predicates on cells (`Engine25/Edges`, `Fringe/Bands`), sums over visible rectangles telescope to sums over cells |
| C45, C60, C61 | `Lvs` | extraction context: layer map, grouping of layers, shapes of layers and nets, pins, devices and terminals | `groupBy` as filter, fold invariants; counterexamples for duplicated pins and unconnected terminals |
| C46 | `Shapes` | converters to and from protobuf messages | structural induction |
| C47 | `NetJson` | `NetlistJSONWriter` with its id allocation, the JSON document as a tree | invariant of the id table over all instances of a circuit |
| C48 | `LogFiles` | log rotation and tee to files | file-system histories |
| C49 | `LayerMap` | `convert_layout_pdk.py`: layer properties file, mapping of layers, conversion | fold invariants, independent grammar of layer names |
| C67–C70 | `Magic` | extraction file parser (regular expressions as token sequences), the files of a run, the report, the generated script | one theorem about delimited token sequences gives all line formats; composition up to the report; the script is read back as a list of commands |
| C71, C72 | `Checker` | `check`, `_check_tris`, `_split_edges`, `dump_stl` | invariants of the splitting rounds, a potential for termination, refinement of intervals on a line for completeness; STL text read back |
| C73 | `Wall` | `generate_v_surface`, `convert_point` | algebra over the reals, irrationality for the diagonal |
| C74–C78 | `Runners` | `run_fastercap`, `run_fastcap`, `run_magic`, `run_klayout_lvs` with arbitrary programs; paths and working directory; solver flows; `main`; `env.py` | laws of `os.path`, sequences of actions on a world; counterexample for relative paths |
| C79–C81 | `Reporter` | `ExtractionReporter`: the report database as a list of events; overlap, sidewall, fringe; result and request of the resistor extraction | filter of the events below a category along all interleavings; exact event lists; reachable counterexample for vias outside the stack |
| C82–C89 | `Pdk`, `Stack3d/Check`, `Fringe/Total`, `RRequest/Ok`, `RRequest/Full` | the technology tables of `cxx/gen_tech_pb/pdk` and the functions that turn them into messages | decidable conditions on a technology imply the hypotheses of the general theorems for every layout; the conditions are evaluated by the kernel for the two tables |
| C90, C91 | `Engine25/Look`, `Own`, `Wires` | nothing new; the cells and edges of `Engine25/Edges` | the edges of a box are computed; evaluation of the sums of C66 |
| C92, C93 | `Engine25/Moves`, `Near`, `Pdk/Moved`, `Nearby` | nothing new; motions of the plane of cells as a specification (`Move`) | the sums of C66 are invariant under a motion (bijection of cells and sides) and under changes outside the halo (same terms, others are zero) |
| C94 | `Pdk/Pins` | nothing new | C60 with the tables of the technologies; which LVS layer has the pins of a conductor is evaluated by the kernel |
| C95 | `LayerMap/Files`, `Shipped` | the two layer files, generated from the `.lyp` files by `tools/gen_lyp.py` (layers in document order, name and source) | the table of targets by numbers is evaluated by the kernel; C49 and counting of known layers then give the statements for all layouts |
| C96 | `Engine25/Plate`, `Pdk/Plate` | as C66 | C66, C91: the only pair of layers is plate over substrate; the four sides look only at the substrate, whose bands end at the halo; the bands of a side telescope |
| C97 | `Engine25/Rename`, `Pdk/Renamed` | as C66 | the totals of C66 over cells and edges are invariant under a bijection of names that fixes `VSUBS` and the empty name |
| C98 | `Runners/Svg` | `netlist_cli.py` and `netlistsvg_runner.py` on the file system of C74; reading of SPICE, `shutil.which` and `str.lower` are parameters, argument parsing and preview are not modelled | the world after each step; partial because the code ignores `--cell` |
| C99 | Engine25/Redraw, Pdk/Redraw | the run of the engine (C66) on two layouts with the same area of every net on every layer | the tables of layers built by the loop over the metals have the same keys and the same areas (induction over the metals, same errors); merging depends only on the area (assumption on KLayout), so the regions and all that follows are equal; case: a sky130A wire drawn in two pieces on two source layers |
| C100 | Logging/Model, Props | the levels and their look-up by name and by value, the handlers and filters of `configure_logger` and `setup_logging`, Python's effective level, `getMessage`; Rich's markup is an arbitrary function, times and wrapping are left out | the four handlers and the level reduce to one step per message (cases over the levels), then induction over the messages |
| C101 | Runners/MagicRun | `run_magic_extraction` with the models of the script (C70), of the process (C74), of the files and of the report (C67–C69); Magic, the layout reader and the report writer are parameters | the steps are followed through the world; partial: `magic_stale`, `magic_no_layout` |
| C102 | Runners/Convert | `main`, `validate_args` and `setup_logging` of `convert_layout_pdk.py` around the conversion (C49, C95); reading and writing of layouts are parameters | the steps are followed through the world; partial: `convert_listed_level`, `convert_no_output` |
| C103 | `Engine25/Crossing`, `Engine25/Strips`, `Pdk/Crossing` | as C66 | C66, C91: of the pairs of layers only upper over lower has both nets; the long edges of each wire see the other one in one band of columns, up to its end; the bands telescope. `Strips` is a KLayout for the example that cuts edges into intervals |
| C104 | `Runners/Rcx25Run` | `run_kpex_2_5d_engine` and `repair_rdb` in the world of files and console of C74; extraction, SPICE writer, text of numbers and loading of reports are parameters; rows and netlist are those of C51 | the steps are followed through the world; lines and fields are read back from the text |
| C105 | `Runners/Together` | `main` (C77) with the flows of C76 and C104 as its steps; Magic, LVS and the making of the input are any steps that succeed; solvers are programs that leave the files they find | the list of steps is computed from C77; each flow keeps all files but its own, whose names differ |
| C106 | Runners/Input | `build_fastercap_input`: the directories, the geometry files, the list file and the STL files, written one after the other in the world of files of C74, with the model generator's surfaces (C17, C55) and the names of C20 and C21. | Induction over the list of files written to a directory; two files with one name have one text because the name determines the material, the net or the hash. |
| C107 | Runners/Prepare | The part of `main` between LVS and the engines, with `dump_layers`. LVS is any step that gives a database. | The writes are to different files; the layers are those of `layers_exact` (C45), and a layer has one GDS pair, so it is in one group only. |
| C108 | Runners/Whole | The steps of C107, C106 and C105 in the order of `main` (C77). | Composition; no file of one step is a directory or a file of another one. |
| C109 | Runners/Analyzer | `_parse_args` (after argparse) and `main` of the log analyzer in the world of files of C74, on top of C67–C69. | Case analysis over the steps; the content is C69 with a database unit of 1 nm. |
| C110 | RNet/Print | `to_string` and `find_network_nodes` with `Conductance.res`. | The invariant of C23: the keys are unique and symmetric, points and identifiers correspond. |
| C111 | Engine25/Shown, Places | The extraction of C59 with `GeometryRestorer` and the calls of the reporter. | The loops with the report refine those without it; every act is traced to its interval, whose cells are those in front of the edge (C66). The specification walks along the edge in the layout and does not use the turned coordinates. |
| C112 | Engine25/OverlapShown | The overlap extraction of C30 with the calls of the reporter. | The loops with the report refine those without it. Every entry is traced to a visit; the shield at that visit is the union of the earlier foreign visits, and the visits are sorted by layer. The specification speaks of the polygons of the layout only. |
| C113 | RNet/Rounded | `eliminate_all` where every operation with conductances is followed by a rounding; only the relative error of the rounding is bounded. | One elimination changes each mesh resistor by a factor between (1-u)^3/(1+u)^N and (1+u)^3/(1-u)^N; the power form (`RNet/Graph`) is monotone in the conductances and minimal at the inner voltages without current, so the factors multiply up. |
| C114 | LayerNames | `lvs_layer_names.py`: the expression, the set of names, the loop that writes them. | The expression is matched from the end, where the parts are delimited (the lemma of `Magic`); induction over the names. |
| C115 | Summary | `extraction_results.py` again, with a rounding after every addition; the built-in `sum` by an error bound. | The tables with and without rounding have the same keys; invariant: for each pair, the number of roundings its value went through. |
| C116 | Rounding | `neighbors` of the overlap extractor, `emit_sidewall` and `fringe_cap` again, with a rounding after every operation. | Calculus of relative errors under products, quotients and sums; the arc tangent does not increase them (concavity); absolute errors from the subtraction on. |
| C117 | Summary, Rcx25Netlist | The summary, the sorting of its items, the CSV rows and the netlist expansion. | Both tables of a summary are determined by sums and occurrences that do not depend on the order; a sorted list is unique if the order is strict on its entries. |
| C118 | TechInfo | The look-ups of `TechInfo` that the rest of the program does not use. | The dictionary comprehension keeps the last entry of a key; induction over the stack from its end; the two attributes that raise are characterised exactly. |
| C119 | RNet | The node table, `location`, `has_node`, `node_ids`. | Every call keeps the location of each known identifier or removes it, and never lowers the counter; induction over the history. |
| C120 | Engine25/Stacked | The pairs of layers that the overlap extraction of C66 counts over one cell. | Case analysis on the order of the layers; the lower bound of the netlist follows from C66 and non-negative values. Counterexample: two plates of one net below a plate of another one. |
| C121 | Engine25/Halo, Pdk/Halo | Two runs over one layout with two side halos (option `--halo`). | The area, the walls and the fringe pieces of the smaller halo inject into those of the larger one (C66); the bound for the netlists follows with the rounding of C66. With scaling the capacitance of a piece is divided by the part of the field within the halo, so it falls: counterexample with crossing wires (C103). |
| C122 | RNetlist | A run with resistances end to end: request (C29), any output of KLayout's resistor extractor, its report (C63), summary (C04), netlist (C05). | Elements correspond to resistors; along a chain of resistors the net that owns a node is invariant (induction), given proper names of inner nodes. Ports get the name of the net, so elements between ports become loops: proved in general, and witnesses for the lost resistance and for equal names of inner nodes. The value of each resistor is the sum over its elements (`resistor_values`), so parallel ways enlarge it (`parallel_ways_enlarge`). |
| C123 | LvsRules | The LVS scripts of both PDKs, transcribed by `tools/gen_lvs.py`: one definition per assignment, the `connect` statements, the `name` statements. A layer is a set of places (boolean operations place by place, other operations such as `interacting` and sizing give subsets or arbitrary regions, which the proofs do not look into); nets are the smallest equivalence that joins touching places of one layer and touching places of connected layers. | A checker that finds a chain of `connect` statements from layers that are present at the place, proved sound for all layouts, evaluated in the kernel for each contact and layer of the stack. Gaps are listed in the specification, each with a layout in which the two are apart (a set of layers closed under `connect` separates them). |
| C124 | LvsRules | as C123, two touching places, pins and texts | as C123; seams and gaps of pins and texts listed, with layouts |
| C125 | LvsRules | as C123, layouts with shapes of one metal and its marker only | the layers joined with the metal are empty there, so nets are exactly paths of the metal without the marker (induction over both relations); for Metal5 of sg13g2 the opposite is proved |
| C126 | LvsRules | as C123; the specification lists the conductors, contacts and vias of each process with their drawn layers and texts | every layer of a conductor lies inside its drawn layers and every `connect` statement joins layers that conduct (both checked in the kernel); then induction over nets. Two violations of sg13g2 with layouts |
| C127 | LvsRules | as C123 | the layers above the via are closed under `connect` in such layouts, because the layer of the via outside of plates is empty (checked in the kernel); induction over nets |
| C128 | LvsRules | as C123; the specification lists the drawn layers and markers of each conductor and via | a truth table over the finitely many drawn layers that the derived layers mention (checked in the kernel), to which the layout at a place is restricted; partial: Metal5 of sg13g2 is extracted by another rule (`metal5_differs`) |
| C129 | LvsRules | as C123; the source and drain layers stay opaque because they are selected by polygons | unfolding the layers of contacts; partial: contacts on taps are lost, poly contacts in a VPP capacitor count twice |
| C130 | Decks | the arguments of `run_klayout_lvs`, `-rd name=value`, the switches of both scripts and the steps on netlists that they select | unfolding the arguments; the last option of a name wins |
| C131 | Decks | `CustomReader.element` and what it calls, the device classes; the parser of KLayout is not modelled | cases of the pins of a model; induction over the elements, with the classes known so far as invariant |
| C132 | Decks | `map_params` | the specification states the values as relations; equivalence by cases |
| C133 | Decks | `CustomWriter.write_device`, `PREFIX_MAP`, the classes of all extracted devices | cases of the classes; partial: the nets of protection devices and taps are in another order, some models have no letter, lengths have no unit |
| C134 | Decks | the combiners of MIM capacitors, diodes, bipolar transistors and resistors, with the options for resistors | sums over terminals, for every law of the device; partial: `supp_series` moves a resistor that is then not combined (`Decks.refused_moved`); one step of combining is modelled, not the order in which KLayout offers the pairs |
| C135 | LvsRules | the statements `extract_devices` with the layers they depend on, transcribed by `tools/gen_lvs.py` | a table of drawings of each transistor; propositional reasoning about each gate layer; contradictions between pairs of gate layers |
| C136 | LvsRules | as C135, and the roles of terminals of KLayout's extractors | as C135, reachability over `connect`; partial: three diodes of sky130A are reversed, the bulk of VPP capacitors of sky130A is joined with nothing; terminals of bipolar transistors, resistors and capacitors are only proved to be on connected layers |
| C137 | Decks | `parse_element` up to KLayout's own, and `clean_sch` with the regular expression for parameters | induction over the words and their characters; partial: brackets, dollar signs and slashes are deleted, the bulk net of a resistor is taken for its model |
| C138 | Decks | writer and reader delegates of sky130.lvs with the generated list of devices | for all nets and values, by cases over the extractors; partial: fuses get a number in place of a letter, capacitors with two nets are accepted |
| C139 | LvsRules | the statements extract_devices of resistors, fuses and MIM capacitors of both scripts with all layers they depend on, and the option `fuse` as KPEX leaves it | place by place from the derived layers: a checked procedure that finds contradictions between the layer and the drawn shapes, with a soundness theorem; partial: marked poly and fuses that give no device |
| C140 | Decks | `calc_res_params` on edges parallel to the axes, `calc_cmim_params` and the parameters set from it, `calc_varicap_params`, `calc_ind_params` with the results of the width and space checks as parameters | all rectangles by calculation with the edges; area and circumference are stated by the shoelace formula; partial: other shapes, for which it is violated |
| C141 | Decks | `get_connectivity`, `extract_devices`, `define_and_sort_terminals`, `sort_polygons` | induction over the edges of a port and the markers, properties of sorting; clusters as a generated equivalence; partial: series resistors and ports of other shapes, for which it is violated |
| C142 | Decks | `extract_devices` and `define_terminals` of MIM capacitors, clusters of rectangular capacitors by their enlarged lower plates | generated equivalence, exact for all lists of rectangles; partial: capacitors near each other, for which it is violated |
| C143 | Decks | `glob_to_case_insensitive_glob`, KLayout's glob patterns with sets of two characters | induction over pattern and text, against an inductive relation |
| C144 | Decks | `poly_high_*`, `poly_xhigh_*`: selection of bodies by the lengths of their edges | membership of the selections against the nominal widths, with violations |
| C145 | Decks | selection of inductors by texts and pins, `GeneralNTerminalExtractor` for them | counting of the selected pins against the labels; order of terminals from C141; violations |
| C146 | Decks | the selections of emitters by bounding box, area and edges | calculation with the limits for all sides; violations at the ends of the ranges |
| C147 | Decks | the 33 ranges of edges, 11 stacks, 4 areas and 54 selections of capacitors between fingers of sky130.lvs, read by `tools/gen_vpp.py`; a marker is a rectangle with the conditions that hold for it | soundness of a test of two selections (no ranges of the two for one side without a common length, no opposite conditions) for all sizes, by induction over the ranges; then the test of all pairs of the table by the kernel |
| C148 | Decks | the three extractors of capacitors between fingers for one marker; a conductor is the list of its merged polygons with bounding boxes and nets | case analysis of the loop over the polygons, for all lists |
| C149 | Decks | the extractor of bipolar transistors of 11 V; collectors, bases and emitters with bounding boxes and nets | each collector filters its own base and emitter from all lists, because the boxes of the collectors are apart |
| C150 | Decks | the selection of bases and collectors of sky130.lvs by the bounding boxes that touch the selected emitters | parts of different transistors do not touch, so the filter over all parts is the filter over the transistors |
| C151 | Decks | the selection of bases and collectors of ESD diodes of sg13g2 by the number of shapes that touch their bounding boxes | a part of a diode touches exactly the shapes of its own diode; then the filter over all parts is the filter over the diodes |
| C152 | Decks | the selection of ESD clamps of sg13g2 by labels, gates and taps of a marker | the labels are those of C143 (`label_recognised`); cases of the two models |
| C153 | Decks | ties of taps, their area and contacts in sg13g2, shapes as sets of grid squares | squares of a bounding box; the tie is the drawn tap iff the box is filled |

## What is modelled and what is not

Modelled, function by function (the doc comment of each definition has the lines):

* `common/capacitance_matrix.py`; `fastcap/fastcap_runner.py` and `fastercap/fastercap_runner.py` (all of it);
  `fastercap/fastercap_input_builder.py`; `fastercap/fastercap_model_generator.py` (builder, `generate`, `finalize`,
  `write_fastcap`, `check`, `dump_stl`, `generate_v_surface`).
* `klayout/lvsdb_extractor.py`, `klayout/netlist_csv.py`, `klayout/netlist_expander.py`, `klayout/netlist_reducer.py`,
  `klayout/repair_rdb.py`, `klayout/shapes_pb2_converter.py`.
* `kpex_cli.py`: argument validation, LVS cache, order of the steps of the field solver, 2.5D and Magic flows, CSV output.
* `env.py`, `klayout/lvs_runner.py`, `log/logger.py` (files), `magic/*`, `netlistsvg/netlist_json.py`, `util/*`.
* `rcx25/*` including the report; `tech_info.py`; `convert_layout_pdk.py`.

* `cxx/gen_tech_pb/protobuf.cpp` (the functions that fill messages) and the tables `pdk/sky130A.cpp` and `pdk/ihp_sg13g2.cpp`, transcribed
  by `tools/gen_pdk.py`; decimals are exact rationals.
* The LVS scripts `sky130.lvs` and `sg13g2.lvs` with its rule decks: derived layers, `connect`, `name` and `extract_devices`, transcribed by `tools/gen_lvs.py`.
  The options of both scripts, and of sg13g2 `custom_reader.lvs`, `custom_writer.lvs`, `custom_combiner.lvs` and `custom_devices.lvs`.
  The extractors of devices and their measurement for the shapes that C140–C142 and C144–C153 name.
  Not modelled there: `connect_global`, `connect_implicit`, the extractors that are part of KLayout (`mos4`, `bjt4`, `diode`, …) and the comparison of
  netlists.

Outside of the model:

* KLayout (`kdb`, `rdb`, `pya`), the resistor extractor of KLayout, protobuf, Magic, FasterCap, FastCap, the file system beyond
  what is stated in the areas, symbolic links, logging output to the console, and the rich/argparse formatting of help texts.
  The behaviour of external programs is an arbitrary function in the area `Runners`.
* Floating point rounding, except in C113, C115, C116 and where it is a parameter, and text outside of ASCII where character classes matter.
* These functions and modules of the project: `convert_layout_pdk.py` 87–110 (definition of the arguments); `GeometryRestorer.restore_region` (never called);
  `util/argparse_helpers.py` 31–56 (help texts); `env.py` 55–65 (help text); `main.cpp` and the
  reading and writing of files of `cxx/gen_tech_pb`; the DRC scripts of the PDKs.

## Axioms

`tools/axioms.sh` prints the axioms of every theorem of the manifest.  They are among `propext`, `Classical.choice` and
`Quot.sound`; some theorems need none or only a part of them.  Witnesses use `decide +kernel`, which evaluates in the kernel and
adds no axiom.

## Findings

Places where the code contradicts a property or surprises its user; those marked with an id are theorems.

Summaries, netlists and networks

* Parallel resistors of the same pair of nodes are added instead of combined (C04).
* The 2.5D netlist stores values in fF in a field of unit F, and creates the net `VSUBS` a second time if the layout has one (C05).
* Field-solver netlists take couplings from the upper triangle only; two conductors of the same net raise an exception; a net
  `FC_GND`/`VSUBS` of the layout is duplicated (C07).
* `add_cond` from a node to itself breaks the network (C23). `connect_nodes(a, a)` deletes the node, an isolated second node is not
  removed, names and the `precious` flag are not transferred (C50).
* `eliminate_node` drops a star whose conductances add up to 1e-10 or less (C24).
* `is_skinny_tri` returns `i != 0` in place of `i`, so the wrong side is split for one of three orientations (C28).
* The CSV form of an empty matrix is rejected, and a separator in a conductor name splits it (C10).
* The JSON netlist keeps only the last instance of a circuit (C47).

Field solver input and output

* A truncated FasterCap log wraps around to the start of the file; a short last row is accepted (C11). FastCap units are ignored, and
  a padded name makes an index a value (C12).
* Overlapping dielectrics give additional surfaces (C17). Touching nets: only the upper bottom is emitted; lateral walls between
  nets are emitted twice with void outside.
* Net names with a slash, dielectric names and names longer in bytes than in characters are not shortened (C21).
* Repeated layer names make the sidewall loop endless (C22).
* A nonzero `height_above_metal` replaces the thickness of the metal instead of adding to it: `topox` of sky130A ends 0.09 µm above the
  bottom of met5. A conformal dielectric around another one counts the thickness of the metal again: `pass2` of ihp_sg13g2 is 3 µm too
  high (C85). A net called `VSUBS` merges with the
  substrate block. Priority of materials is the order of declaration.
* The geometry check accepts an open sheet that lies on a side of another surface, and reports two closed solids that touch along a
  side (C71). A slash in a net name makes the STL dump fail (C72).
* Vertical surfaces of edges that are not along an axis do not meet the horizontal ones exactly (C73).

2.5D extraction

* A missing overlap specification ends the loop over all remaining layers (C31); a layer of the same net in between does not shield,
  so that every layer of a via stack adds its overlap capacitance to a net above although only the top one is visible (C120).
* `emit_fringe` returns at the first polygon that is not visible, which drops the remaining polygons of the interval (C34).
* A sidewall is recorded even if the polygon of the edge itself lies in between; the fringe range is the halo plus one database unit;
  scaling divides by zero if the overlap capacitance or the halo is 0 (C33).
* A missing side-overlap specification is a `KeyError` (C42). Via regions are collected and never used. `top_cell_bbox` takes the larger
  one of two boxes, so the substrate may miss shapes if they are not nested (C65). A metal without a computed layer is a `KeyError`; two metals
  with the same GDS numbers double the shapes.
* sky130A gives the names of the pin layers of met1 to met5 again to the label layers, and the last one counts: with any pin shape on these
  metals the resistor extraction ends with an `AttributeError` (C88). The resistance of the via between met1 and met2 is entered as `via`,
  but its LVS layer belongs to `via1`: the resistor extractor never gets a via between met1 and met2, and nets fall apart (C89). The vias on
  the MIM plates of sky130A are said to start on the lower plate; in ihp_sg13g2 the upper plate is no conductor, and a via on it ends the
  run with a `KeyError` while the request is reported (C81, C89). With `--blackbox` the layers of capacitor and resistor devices are left
  out of the table of layers, but the terminals of the devices still refer to them: a MIM capacitor ends the run with a `KeyError` (C88).
* MIM plates of both technologies are layers of the stack without parasitics: if anything lies in front of their edges, the 2.5D run ends
  with a `KeyError`; without `--blackbox`, which is the default, they are included (C86). The sidewall offset of Metal1 of ihp_sg13g2 is
  -0.057 µm and is added to the distance: closer nets get a negative capacitance, at equality the run ends with a division by zero
  (C86, C87).
* The polygon of an edge does not shield the edge: where a polygon bends around, its inner edges are coupled to nets behind its own other
  arm, and the fringe capacitance is reduced accordingly (C90).

R extraction

* Terminals of grouped layers are on layers that the technology description does not declare (C64); via entries without a contact get
  the ids 0 (C62); contact resistances are looked up by the device layer only; an unconnected terminal is an `AttributeError` (C61); pins
  are repeated per source layer (C60); a pin shape without net is a `TypeError`; shapes of grouped layers are repeated (C29).

Command line, cache, logs and conversion

* `1` and `0` are rejected as booleans (C38); `+foo` filters and `is_included` disagree, and choices with upper case never match (C39).
* Category paths lose a trailing empty name, and other escapes are changed; quotes in names break the XPath query; an empty category
  text is a `TypeError` (C40, C41).
* Holes and empty net names are lost in the shape messages (C46). Backups of log files collide within a second (C48).
* The LVS cache is keyed by file names: databases of other directories, changed schematics or scripts, failed runs, files with older
  modification times and edits during a run give stale results; a removed output is not restored (C36).
* `--fastcap` with a relative output directory, as the default one, always fails after the solver has succeeded: `run_fastcap` changes the
  working directory, and the log is then looked for below the input files (C76). A failed LVS run is only a warning (C74).
* `PDKPATH` without `PDK` makes every call fail with a `KeyError`, even `--help`; `--magic` without a configuration file is a `TypeError`;
  a variable that is set to nothing gives an empty program name (C78).
* The report of a resistor extraction ends the run with a `KeyError` if a via layer has no contact in the process stack or the metal above
  or below is not in the layout (C81). Overlap categories of nets with ` – ` in their names can coincide (C79). The values of conductors
  are printed as mΩ/µm^2 although they are Ohm.
* An unknown `--cell` is an `AttributeError`; `--gds ""` is accepted and fails later (C37).
* A layout of sg13g2 with only `Metal3`, `Via3` and `Metal4` is converted as one of sky130A, so all shapes go to dummy layers; the same
  happens to met2, via2 and met3 of sky130A on the way back (C95). The layer `boundary` is four times in sky130A.lyp; only 235/250 is mapped.
* The substrate reaches only `side_halo` beyond the bounding box of the cell while fringe values are taken one database unit further (C96).
* The table of the 2.5D engine does not quote semicolons in the names of nets, so a line may not tell which nets are meant (C104). With
  `--fastcap` and a relative output directory the 2.5D engine is not started at all (C105).
* STL files of nets that no longer exist stay in `Geometries` when a directory is used again (C106), and so does the layout of unknown layers
  when there are none any more (C107).
* `netlist svg --cell` is ignored: with several top circuits the message asks for `--cell`, and the command exits with status 2 also if it is given (C98, `svg_cell_fails`).
* `netlist svg` opens the JSON file before the document is made, so an empty file remains if that fails (C98, `svg_no_document`).
* With sky130A met1 to met5 never have pins, as the names of their pin layers are given again to the label layers (C94).
* Layer conversion merges tap and diffusion on `Activ`; of several layers of one name only the last is mapped; `errors += str` adds
  characters; an empty target leaves the layer unrenamed (C49).
* `--log_level all` shows less than the default: 0 is Python's NOTSET, so the level of the root logger (WARNING) applies (C100). A message with text that Rich takes for a closing tag, such as a file name with `[/`, ends the run with a MarkupError (C100). A `--diel` filter that cannot be parsed ends `kpex` with a TypeError instead of the error message, because `error` is called with an argument but no placeholder (C37, C100). `--log_level` of the netlist tool rejects every value, because it is looked up by number (C100).
* The conversion tool fails with a ValueError for every log level as listed by its help, and checks the directory of the input
  instead of that of the output; `--layers` needs `--in` and `--out`, which it does not use (C102).

Magic

* Nets with characters other than letters, digits and underscores (`a_10#`, `x1/out`) are dropped without a message, and so is a node
  whose line has no attributes or whose capacitance is not an integer (C67). An unknown type of device or a value like `1.2.3` aborts.
* File names are matched as a prefix: `a.ext2.ext` replaces `a.ext`, and a cell `a.res` is read as the resistors of `a` (C68).
* The run directory is not cleaned, so files of earlier runs are reported; if Magic writes nothing at all the run succeeds and
  shows the old netlist (C101). With LVSDB input the engine prints an error and the run succeeds (C101).
* A resistor whose nodes have no `rnode` line is listed without a shape (C69).
* Paths and cell names with blanks or Tcl special characters change the script (C70).
* `magic_log_analyzer` cannot be called without `--out`: the default path is computed but not stored (C109).
* `lvs_layer_names.py` imports from a package `kpex` that the repository does not have, so it does not start (C114).
* Pairs of nets whose names differ only in case compare as equal, so their rows and device numbers depend on the order in which shapes are visited (C117, `case_order`).
* `process_stack_layer_by_gds_pair` and `pin_layer_mapping_for_drw_gds_pair` read fields that the messages do not have, `contact_above_metal_layer_name` looks up a message instead of its name; nothing reads these attributes (C118).
* With scaling to the halo, which is the default, a larger `--halo` makes the fringe capacitance of wires that end within the halo smaller (C121, `scaled_halo_shrinks`).
* All ports of a net get the name of the net, and the devices are not reconnected: resistances that are found between two terminals of a net have no effect in the netlist (C122, `ports_of_a_net_merged`). The inner nodes get the name that KLayout prints for them; if two nets have inner nodes of the same name, the netlist connects the nets (C122, `inner_names_join_nets`).
* `sg13g2.lvs` derives Metal5 outside of MIM capacitors without excluding the resistor marker, and connects it with the rest of Metal5: every Metal5 resistor is shorted (C125, `metal5_resistor_shorts`).
* `sky130.lvs` connects `via2`, not `via2_con`, with the Metal 3 plate of MIM capacitors: a via 2 under the plate joins nothing (C123, `vias_apart`). The pins of Metal 3 and Metal 4 are not connected with the plates, and the metals inside VPP capacitors not with gate poly, local interconnect and the MIM plates around them (C124, `conductors_apart`).
* `sg13g2.lvs` connects the pins of inductors with TopMetal1 and with TopMetal2, which shorts the two where both lie under a pin (C126, `inductor_pin_shorts`). The lower plates of MIM capacitors are enlarged by 0.6 µm before they are connected with Metal5, so a Metal5 wire in reach is shorted with the plate if Metal5 does not enclose the capacitor by so much (C126, `mim_plate_shorts`).
- Contacts on taps are not extracted (`LvsRules.tap_contacts_lost`): on both technologies the layers for contacts are made for source, drain and poly only, so a well or substrate tap has no contact resistance and no contact in the resistor network.
- A contact on poly inside a vertical parallel plate capacitor of sky130A is in two extracted layers (`LvsRules.contact_twice`).
- Metal5 of sg13g2 is extracted by another rule than the other metals (`LvsRules.metal5_differs`): fillers are lost, slits and resistors count as metal, while LVS connects by the rule of the other metals.
- sky130A.cpp declares that `via1_con` is derived from a drawn layer "via1", but the drawn layer is called "via" (C128 takes both names for one layer).
- The netlist file of LVS of sg13g2 cannot be read as a schematic in general (C133): protection devices, Schottky diodes and taps are written in another order of pins (`Decks.out_of_order`), models that `PREFIX_MAP` misses or spells otherwise (`inductor`, `sg13_hv_svaricap`, `npn13G2l`, `res_metal1` and others) get a number in place of a letter (`Decks.without_letter`), and lengths are written in micrometres without a unit (`Decks.units_lost`).
- The schematic reader of sg13g2 drops the third net of a capacitor that is no `rfcmim` (`Decks.third_net_lost`) and fails with an exception for a tap with a bulk net (`Decks.tap_bulk_fails`).
- If two resistors of sg13g2 are in series but cannot be combined, because their widths differ or `SERIES_RES` is off, `supp_series` has already connected the first one with the outer end of the second (C134, `Decks.refused_moved`): the netlist of the layout is changed although the combiner answers no. KPEX starts LVS without combining devices (C130), so this shows only when the script is started otherwise.
- Three of the four diodes from the substrate to n diffusion of sky130A (`_05v5_lvt`, `_05v5_nvt`, `_11v0`; sky130.lvs 2063–2072) have the layers of their terminals exchanged: their anode is put on the n diffusion (C136, `LvsRules.ndiode_reversed`).
- The layer `vpp_sub` with the bulk of the VPP capacitors of sky130A is connected only with the texts of the p well, so the bulk is a net that no wire, tap or substrate belongs to (C136, `LvsRules.vpp_bulk_alone`).
- All n channel transistors of sky130A have their bulk on `sub`, which `connect_global` makes one net: transistors in an isolated p well (`dnwell`) are not told from those in the substrate.
- The schematic reader of sg13g2 deletes the characters `[`, `]`, `$` and `/` from element lines, so nets such as `a[1]` and `a1` become one net (C137, `Decks.nets_merged`, `Decks.merged_iff`); the pins of `.subckt` lines are not changed. Of a resistor line only three words are kept, so with a bulk net the model is lost and the bulk net is read as the model (`Decks.bulk_as_model`). Of a value in braces the closing brace is lost (`Decks.brace_lost`), because the regular expression for parameters ends at a word boundary.
- LVS of sky130A writes fuses with a number in place of the letter `R`, because the names of their models do not contain `res`, so their lines are no SPICE elements (C138, `Decks.sky_fuses`). A schematic line of a capacitor between metal fingers with two nets is read with an open third terminal (`Decks.sky_vpp_open`).
- KPEX gives LVS of sky130A no option `fuse`, so only fuses of met4 are extracted; the markers of fuses on met2 and met3 still cut the wires (sky130.lvs 1005–1006), which become open without a device (C139, `LvsRules.fuse_open_sky`). In the same way poly under `poly_res` in `rpm` or `urpm` but outside of `psdm` (`LvsRules.poly_open_sky`), and gate poly of sg13g2 under `polyres` outside of `extblock` (`LvsRules.poly_open_sg`), are open without a message.
- If the marker of a poly resistor of sg13g2 is wider than the poly, LVS measures a length that does not depend on the length of the resistor and reports a bend (C140, `Decks.res_overhang`). An L-shaped MIM capacitor gets area 0 (`Decks.mim_notch`), one in the shape of a cross a fifth of its area (`Decks.mim_cross`).
- Two poly resistors of sg13g2 in series with a common piece of poly are not extracted at all, with only a message in the log (C141, `Decks.series_lost`). A port with more than four corners is replaced by the polygon of its first four (`Decks.terminal_cut`).
- MIM capacitors of sg13g2 with 1.2 µm or less between them are not extracted, with only a message in the log (C142, `Decks.cmim_extracted_partial`). A varactor whose gate crosses the active area gets the width and length 0 (C140, `Decks.varicap_crossing`).
- A precision poly resistor of sky130A with the width of one model and the length of another, for instance 0.35 µm by 0.69 µm, is extracted as two devices; one with another width is cut out of the poly and is no device (C144, `Decks.models_twice`, `Decks.models_none`).
- LVS of sg13g2 extracts an inductor3 without a pin LA, if it has two pins LB, because the script asks for LB twice (C145, `Decks.inductor3_without_A`). The terminals of inductors are ordered by position, so those of a mirrored inductor are swapped (`Decks.inductor2_swapped`).
- An inductor of sg13g2 with pins on opposite sides gets the diameter 0 (C140, `Decks.ind_opposite`); if no edges of it face each other, LVS ends with an exception (`Decks.ind_no_space`).
- The longest npn13G2l and npn13G2v transistors that the script of sg13g2 announces, with emitters of 2.5 µm and 5 µm, are not recognised, because KLayout excludes the upper limits (C146, `Decks.longest_lost`).
- C147: three selections of capacitors between fingers of sky130.lvs (lines 1486, 1513, 1543) ask for the same range of edges twice
  (`interacting(vpp_5_49).interacting(vpp_5_49)`) and for no layer. They look at one side only: a marker with one side of 5.49 µm gets the model of
  5.9 µm by 5.9 µm whatever its other side is (`vpp_one_side`), and one of 1.43 µm by 5.49 µm is extracted as two devices (`vpp_twice`).
- C130: the script of sky130A compares its options with `"true"`, that of sg13g2 without regard to letter case. `-rd purge=TRUE` purges the netlist
  in the second and simplifies it in the first (`sky_letter_case`). KPEX itself gives lower case.
- C148: the extractors of capacitors between fingers take the first polygon of the conductor in the marker as one terminal. A piece of met2 away from
  the combs that comes first becomes a terminal, and one comb is lost (`vpp_dummy_first`). `VPP3NHVExtractor` takes the first polygons of met2 and
  met1; where the combs are joined by vias these are on the same net, and the capacitor is shorted (`nhv_shorted`).
- C149: `FixBJT4Transistor` combines each base with each emitter in the bounding box of a collector: n transistors of 11 V with a common collector are
  extracted as n² devices, most of them between the base of one transistor and the emitter of another (`hv_npn_shared`).
- C150: the script of sky130A selects collectors by the bounding boxes that touch the emitters of a model. A collector that touches such a box is
  selected for that model too, although its own transistor has another (`neighbour_selected`).
- C151: the script of sg13g2 takes a collector of an ESD diode only if its bounding box touches one base. Two diodes of the same voltage in a common
  collector are both lost (`esd_shared_ring`), and so is a diode with three emitters (`esd_lost`).
- C152: an ESD clamp of sg13g2 is extracted once for each tap in its marker (`clamp_taps`), a marker with both labels as both models (`clamp_both`). The
  layers of `nmoscl_exc` (esd_derivations.lvs 125), which seem to be meant to exclude markers, are not used.
- C153: taps ntap1 and ptap1 of sg13g2 are replaced by their bounding boxes (tap_derivations.lvs 35 and 41). A guard ring so has the area of its box
  (`tap_too_large`), and is joined to the contacts of the devices that it surrounds, unless they are on excluded layers (`tap_shorts`).
  A ring around a place without well, as PWell:block, is no device, because the well does not cover the box (`tap_lost`).
