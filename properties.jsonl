{"id": "C01", "title": "Summary conserves capacitance per net pair", "statement": "After any sequence of add_overlap_cap / add_sidewall_cap / add_sideoverlap_cap calls, in any number of cells, the summary reports for every unordered pair of nets exactly the sum of the recorded capacitance values between these two nets (whichever way round each record names them), and nothing for a pair that was never recorded.", "quantifier": "all finite histories of add_* calls over any net and layer names, all net pairs", "why_tests_cant": "the number and mix of records, key orientations and tables is unbounded; a test fixes one history", "anchors": ["klayout_pex/rcx25/extraction_results.py:CellExtractionResults.add_overlap_cap", "klayout_pex/rcx25/extraction_results.py:CellExtractionResults.summarize", "klayout_pex/rcx25/extraction_results.py:ExtractionSummary.merged", "klayout_pex/rcx25/extraction_results.py:ExtractionResults.summarize"]}
{"id": "C02", "title": "Summary does not depend on recording order", "statement": "Recording the same contributions in a different order, or visiting cells in a different order, gives a summary with the same capacitance for every net pair (exact arithmetic).", "quantifier": "all histories and all permutations of a history", "why_tests_cant": "there are factorially many orders", "anchors": ["klayout_pex/rcx25/extraction_results.py:CellExtractionResults.summarize", "klayout_pex/rcx25/extraction_results.py:ExtractionSummary.merged"]}
{"id": "C03", "title": "Each net pair appears once in a summary, in canonical order", "statement": "A summary never lists the same two nets twice (neither as (a,b) and (b,a) nor repeated), every listed pair is alphabetically ordered, and merging a summary with nothing, or merging twice, does not change any pair's value.", "quantifier": "all histories, all lists of summaries", "why_tests_cant": "needs every combination of orientations and names", "anchors": ["klayout_pex/rcx25/extraction_results.py:NetCoupleKey.normed", "klayout_pex/rcx25/extraction_results.py:ExtractionSummary.merged"]}
{"id": "C04", "title": "Summarised resistance is the resistance between the nets", "statement": "For every pair of node names the resistance reported in the summary is the resistance that the extracted elements connecting the two nodes present between them.", "quantifier": "all R networks", "why_tests_cant": "depends on how many elements connect the same two names; any number is possible", "anchors": ["klayout_pex/rcx25/extraction_results.py:CellExtractionResults.summarize", "klayout_pex/rcx25/extraction_results.py:ExtractionSummary.merged"]}
{"id": "C05", "title": "2.5D expanded netlist contains exactly the extracted parasitics", "statement": "The expanded netlist contains, for every capacitance (resistance) of the summary, exactly one capacitor (resistor) device with that value (fF converted to F), connected between the nets of those names; all device names of one class are distinct; all pre-existing nets are kept and no net name occurs twice; the input netlist is not modified.", "quantifier": "all netlists and all summaries", "why_tests_cant": "must hold for every number of parasitics, existing or missing nets", "anchors": ["klayout_pex/rcx25/netlist_expander.py:RCX25NetlistExpander.expand"]}
{"id": "C06", "title": "PEX mode selects what is extracted", "statement": "Capacitances are extracted exactly for the modes CC and RC, resistances exactly for R and RC, every mode extracts something, and the default mode is CC; in a mode without capacitance (resistance) the results contain no capacitance (resistance).", "quantifier": "all modes, all layouts", "why_tests_cant": "combines a finite mode table with unbounded extraction histories", "anchors": ["klayout_pex/rcx25/pex_mode.py:PEXMode", "klayout_pex/rcx25/extractor.py:RCX25Extractor.extract"]}
{"id": "C07", "title": "Field-solver netlist reproduces the Maxwell matrix", "statement": "If the capacitance matrix is symmetric with non-positive couplings and non-negative remainder per row, then the capacitors the netlist expander adds present, between all conductors other than conductor 0 (the reference), exactly the given Maxwell matrix: the nodal capacitance matrix of the added devices equals the input on all rows and columns except those of the reference.", "quantifier": "all matrix sizes and entries", "why_tests_cant": "all sizes and all real entries", "anchors": ["klayout_pex/klayout/netlist_expander.py:NetlistExpander.expand"]}
{"id": "C08", "title": "Field-solver netlist only contains positive capacitors between distinct nets", "statement": "Whatever the matrix, every capacitor the expander adds has a strictly positive value and connects two different nets, or expansion fails with an exception.", "quantifier": "all matrices, all conductor name lists", "why_tests_cant": "arbitrary, also asymmetric or noisy, solver output", "anchors": ["klayout_pex/klayout/netlist_expander.py:NetlistExpander.expand"]}
{"id": "C09", "title": "Averaging makes a capacitance matrix symmetric and nothing else", "statement": "averaged_off_diagonals returns a symmetric matrix, with the same names and diagonal, whose off-diagonal entries are the mean of the two mirrored inputs; the original matrix is not modified; averaging twice equals averaging once; a symmetric matrix is unchanged; the sum of all entries is preserved.", "quantifier": "all square matrices of any dimension", "why_tests_cant": "in-place double loop over all index pairs of any dimension", "anchors": ["klayout_pex/common/capacitance_matrix.py:CapacitanceMatrix.averaged_off_diagonals"]}
{"id": "C10", "title": "Capacitance matrix CSV round trip", "statement": "Writing a matrix with write_csv and parsing it with parse_csv gives back the same conductor names and the values (up to the 12 significant digits of the format), for names without separators, line breaks or surrounding blanks.", "quantifier": "all dimensions, names, values", "why_tests_cant": "unbounded strings and dimensions", "anchors": ["klayout_pex/common/capacitance_matrix.py:CapacitanceMatrix.parse_csv", "klayout_pex/common/capacitance_matrix.py:CapacitanceMatrix.write_csv"]}
{"id": "C11", "title": "FasterCap log parsing returns the last complete matrix", "statement": "For every solver log, the parsed capacitance matrix is the last one printed in it: with the names and row order as printed and values scaled by 1e-6; a log without a matrix is rejected with an error, and a log that ends inside a matrix is never turned into a matrix with wrong rows.", "quantifier": "all logs (any number of iterations, any dimension, any surrounding text, any truncation point)", "why_tests_cant": "crash/truncation points and log lengths are unbounded", "anchors": ["klayout_pex/fastercap/fastercap_runner.py:fastercap_parse_capacitance_matrix"]}
{"id": "C12", "title": "FastCap log parsing honours matrix and unit", "statement": "For every FastCap2 log, the parsed matrix is the last one printed, and the parsed values denote the same physical capacitance whichever unit the log announces.", "quantifier": "all logs, all units", "why_tests_cant": "unbounded logs and all announced units", "anchors": ["klayout_pex/fastcap/fastcap_runner.py:fastcap_parse_capacitance_matrix"]}
{"id": "C13", "title": "Netlist reduction removes exactly the negligible capacitors", "statement": "The reduced netlist contains exactly the devices of the (combined) input that are not capacitors below the threshold; no other device is changed and the input netlist is not modified.", "quantifier": "all netlists", "why_tests_cant": "any number and order of devices (devices are removed while the list is being walked)", "anchors": ["klayout_pex/klayout/netlist_reducer.py:NetlistReducer.reduce"]}
{"id": "C14", "title": "Material occupancy of the 3D model at every height", "statement": "While the model generator sweeps upwards, the region it holds for a material or net just above height z is exactly the union of the added layers of that material that start at or below z and end above z, whatever the number of overlapping layers and the order in which they were added.", "quantifier": "all layer stacks, all heights, all points of the plane", "why_tests_cant": "unbounded stacks; every plane point", "anchors": ["klayout_pex/fastercap/fastercap_model_generator.py:FasterCapModelBuilder.generate", "klayout_pex/fastercap/fastercap_model_generator.py:FasterCapModelGenerator._merge_events", "klayout_pex/fastercap/fastercap_model_generator.py:FasterCapModelGenerator.finish_z"]}
{"id": "C15", "title": "Every point of the 3D model belongs to at most one material", "statement": "After every step of the sweep the regions assigned to different nets and dielectrics are pairwise disjoint, their union is the union of all added layers at that height, and where several overlap the conductor wins over the dielectric and earlier entries win over later ones.", "quantifier": "all layer stacks, heights and points", "why_tests_cant": "all overlap combinations of arbitrarily many materials", "anchors": ["klayout_pex/fastercap/fastercap_model_generator.py:FasterCapModelGenerator.finish_z"]}
{"id": "C16", "title": "Every horizontal interface of the 3D model is emitted", "statement": "Wherever two different materials (or a material and void, or a conductor and anything else) meet at a height z, the generator emits a surface triangle region there, under the right pair of materials. Where two nets touch, which have no material between them, the bottom of the upper net is emitted.", "quantifier": "all layer stacks, heights and points", "why_tests_cant": "all overlap/priority combinations", "anchors": ["klayout_pex/fastercap/fastercap_model_generator.py:FasterCapModelGenerator.finish_z"]}
{"id": "C17", "title": "No spurious horizontal interface is emitted", "statement": "Wherever the generator emits a horizontal surface between materials A (below) and B (above), A is really the material just below and B the material just above.", "quantifier": "all layer stacks, heights and points", "why_tests_cant": "needs particular overlaps of three or more materials", "anchors": ["klayout_pex/fastercap/fastercap_model_generator.py:FasterCapModelGenerator.finish_z"]}
{"id": "C18", "title": "Vertical walls are emitted exactly once between different materials", "statement": "For every boundary between two laterally adjacent materials in a slab, exactly one wall is emitted: to the conductor if exactly one side is a conductor, otherwise once for the unordered pair of dielectrics (or dielectric and void); one per conductor between two different nets; none between equal materials.", "quantifier": "all material assignments of neighbouring cells", "why_tests_cant": "all pairs in arbitrarily long material lists", "anchors": ["klayout_pex/fastercap/fastercap_model_generator.py:FasterCapModelGenerator.next_z"]}
{"id": "C19", "title": "Merging of reversed dielectric interfaces is lossless", "statement": "After finalisation no pair of dielectrics appears in both orientations, and every triangle collected before is still present exactly as often, possibly reversed together with its material pair.", "quantifier": "all collections of triangles", "why_tests_cant": "all orders and orientations of arbitrarily many material pairs", "anchors": ["klayout_pex/fastercap/fastercap_model_generator.py:FasterCapModelGenerator.finalize"]}
{"id": "C20", "title": "FasterCap list file groups surfaces into conductors", "statement": "In the generated list file every net gets exactly one conductor number, different nets get different numbers, all surfaces of a net form one uninterrupted group joined with '+', and the group is closed before the next net begins.", "quantifier": "all models with any number of nets and dielectrics", "why_tests_cant": "any number of nets and outside materials per net", "anchors": ["klayout_pex/fastercap/fastercap_model_generator.py:FasterCapModelGenerator.write_fastcap"]}
{"id": "C21", "title": "Generated geometry file names are valid and distinct", "statement": "Distinct (outside material, net) or (outside, inside) pairs get distinct geometry file names within the file system's length limit.", "quantifier": "all material and net names of any length", "why_tests_cant": "unbounded names, hash shortening", "anchors": ["klayout_pex/fastercap/fastercap_model_generator.py:FasterCapModelGenerator.write_fastcap"]}
{"id": "C22", "title": "Model generation terminates for every sidewall-dielectric description", "statement": "Building the field-solver model terminates for every process stack that passes the technology loader.", "quantifier": "all process stacks", "why_tests_cant": "termination cannot be tested; cyclic references are possible inputs", "anchors": ["klayout_pex/fastercap/fastercap_input_builder.py:FasterCapInputBuilder.build", "klayout_pex/tech_info.py:TechInfo.sidewall_dielectric_layer"]}
{"id": "C23", "title": "Resistor network bookkeeping stays consistent", "statement": "After any sequence of node_id, name/mark-precious, add_cond, connect_nodes, eliminate_node, remove_node and eliminate_all calls, the network's own check() reports no error: conductances are symmetric, listed once at each end, only between known nodes, and no node is connected to itself.", "quantifier": "all finite histories of operations", "why_tests_cant": "mutable, aliased tables; errors only appear after particular histories", "anchors": ["klayout_pex/rcx25/r/resistor_network.py:ResistorNetwork.check", "klayout_pex/rcx25/r/resistor_network.py:ResistorNetwork.add_cond", "klayout_pex/rcx25/r/resistor_network.py:ResistorNetwork.remove_node", "klayout_pex/rcx25/r/resistor_network.py:ResistorNetwork.eliminate_node", "klayout_pex/rcx25/r/resistor_network.py:ResistorNetwork.connect_nodes"]}
{"id": "C24", "title": "Eliminating a node preserves the electrical behaviour of the others", "statement": "Eliminating a node leaves the current/voltage relation seen at all other nodes unchanged: a set of node voltages and injected currents of the remaining nodes is possible in the reduced network iff it extends, with zero current injected at the eliminated node, to the original network.", "quantifier": "all networks, all nodes, all voltages and currents", "why_tests_cant": "quantifies over all real conductances, voltages and degrees", "anchors": ["klayout_pex/rcx25/r/resistor_network.py:ResistorNetwork.eliminate_node"]}
{"id": "C25", "title": "Network reduction terminates and keeps exactly the terminals", "statement": "eliminate_all terminates on every network; afterwards every node that still has a connection is a precious node, no precious node is removed, and the behaviour at the precious nodes is that of the original network.", "quantifier": "all networks and precious sets", "why_tests_cant": "termination and the degree-driven schedule for arbitrary graphs", "anchors": ["klayout_pex/rcx25/r/resistor_network.py:ResistorNetwork.eliminate_all"]}
{"id": "C26", "title": "Conductances never become negative", "statement": "If all conductances put into a network are non-negative, then all conductances of the network stay non-negative under any sequence of operations.", "quantifier": "all histories", "why_tests_cant": "all histories and values", "anchors": ["klayout_pex/rcx25/r/resistor_network.py:ResistorNetwork", "klayout_pex/rcx25/r/conductance.py:Conductance"]}
{"id": "C27", "title": "Conductance combination laws", "statement": "Parallel combination is commutative and associative with 0 as unit; serial combination is commutative, never exceeds either operand, and yields 0 when an operand is (numerically) zero; combining returns a new value and does not alter the operands unless the in-place variant is used.", "quantifier": "all non-negative conductances", "why_tests_cant": "algebraic laws over all reals", "anchors": ["klayout_pex/rcx25/r/conductance.py:Conductance.add_parallel", "klayout_pex/rcx25/r/conductance.py:Conductance.add_serial"]}
{"id": "C28", "title": "Skinny triangles are split at the vertex nearest to their long side", "statement": "When a triangle of the tessellation is skinny, the split uses the vertex whose distance to the opposite side triggered the test.", "quantifier": "all triangles", "why_tests_cant": "all integer triangles in all vertex orders", "anchors": ["klayout_pex/rcx25/r/resistor_network.py:ResistorNetworkExtractor.is_skinny_tri", "klayout_pex/rcx25/r/resistor_network.py:ResistorNetworkExtractor.expand_skinny_tris"]}
{"id": "C29", "title": "R extraction request partitions its input by net", "statement": "The R extraction request contains one entry per net that has pins, device terminals or shapes, each pin, terminal and shape of the input appears in the request of its own net exactly once, and in no other.", "quantifier": "all layouts (pins, terminals, regions) and nets", "why_tests_cant": "any number and order of pins, terminals and layers", "anchors": ["klayout_pex/rcx25/r/r_extractor.py:RExtractor.prepare_request"]}
{"id": "C30", "title": "Overlap capacitance counts every covered area exactly once", "statement": "For every bottom polygon, each covered point contributes to the coupling to exactly one layer above (the nearest one covering it with a different net), so the areas recorded for one polygon sum to the area covered by other nets.", "quantifier": "all neighbourhoods of polygons on any number of layers", "why_tests_cant": "all stacks of overlapping polygons, in all orders", "anchors": ["klayout_pex/rcx25/c/overlap_extractor.py:OverlapExtractor.PEXPolygonNeighborhoodVisitor.neighbors"]}
{"id": "C31", "title": "Overlap extraction is insensitive to layers without coupling data", "statement": "A layer pair that has no overlap specification contributes nothing itself and does not change the couplings recorded for other layers.", "quantifier": "all neighbourhoods", "why_tests_cant": "requires stacks with a missing specification between others", "anchors": ["klayout_pex/rcx25/c/overlap_extractor.py:OverlapExtractor.PEXPolygonNeighborhoodVisitor.neighbors"]}
{"id": "C32", "title": "Sidewall capacitance law", "statement": "A sidewall record is made only between different nets, its value is non-negative, proportional to the facing length, strictly decreasing with the distance; the two facing edges together contribute exactly length*C/(distance+offset).", "quantifier": "all lengths, distances and specifications", "why_tests_cant": "all real parameters", "anchors": ["klayout_pex/rcx25/c/sidewall_and_fringe_extractor.py:SidewallAndFringeExtractor.PEXEdgeNeighborhoodVisitor.emit_sidewall"]}
{"id": "C33", "title": "Fringe capacitance is additive over distance bands and bounded by the halo total", "statement": "The fringe capacitance of a band is non-negative, bands that adjoin add up to the fringe capacitance of the joint band, widening a band never lowers it, and with halo scaling the full halo receives exactly the nominal fringe capacitance.", "quantifier": "all real distances, lengths and technology constants", "why_tests_cant": "transcendental law over all reals", "anchors": ["klayout_pex/rcx25/c/sidewall_and_fringe_extractor.py:SidewallAndFringeExtractor.PEXEdgeNeighborhoodVisitor.fringe_cap"]}
{"id": "C34", "title": "Fringe records do not depend on polygon order", "statement": "The fringe capacitance recorded for an edge interval does not depend on the order in which the neighbouring polygons are listed.", "quantifier": "all polygon lists and all permutations", "why_tests_cant": "all orders of arbitrarily many polygons including degenerate ones", "anchors": ["klayout_pex/rcx25/c/sidewall_and_fringe_extractor.py:SidewallAndFringeExtractor.PEXEdgeNeighborhoodVisitor.emit_fringe"]}
{"id": "C35", "title": "The nearest lateral neighbour is selected", "statement": "Of all lateral neighbours of an edge the sidewall coupling goes to one with minimal distance, and the first listed one among those.", "quantifier": "all polygon lists", "why_tests_cant": "all lists", "anchors": ["klayout_pex/rcx25/c/polygon_utils.py:find_polygon_with_nearest_edge", "klayout_pex/rcx25/c/polygon_utils.py:nearest_edge_distance"]}
{"id": "C36", "title": "An extraction run uses the LVS database of the given layout", "statement": "For every history of tool runs and edits of the layout, the LVS database a successful run extracts from was produced from the layout content present at that run (or later than its last modification).", "quantifier": "all histories of runs, edits, deletions of outputs, LVS failures", "why_tests_cant": "depends on the file system history", "anchors": ["klayout_pex/kpex_cli.py:KpexCLI.create_lvsdb", "klayout_pex/klayout/lvs_runner.py:LVSRunner.run_klayout_lvs"]}
{"id": "C37", "title": "Invalid engine/input combinations are rejected", "statement": "Argument validation accepts exactly those invocations that activate at least one engine, provide GDS or LVSDB, and provide GDS if MAGIC is requested (given that all referenced files exist and are readable).", "quantifier": "all combinations of engine switches and inputs", "why_tests_cant": "every combination, including values of paths", "anchors": ["klayout_pex/kpex_cli.py:KpexCLI.validate_args"]}
{"id": "C38", "title": "Boolean command line values", "statement": "A boolean option accepts exactly the documented spellings in any letter case, maps them to the documented value and rejects everything else.", "quantifier": "all strings", "why_tests_cant": "all strings", "anchors": ["klayout_pex/util/argparse_helpers.py:true_or_false"]}
{"id": "C39", "title": "Dielectric filter semantics", "statement": "For every accepted pattern, filtering a list keeps exactly those choices for which is_included is true, in order; 'all,-x' keeps everything but x, 'none,+x' keeps only x, and contradictory patterns are rejected.", "quantifier": "all pattern strings and choice lists", "why_tests_cant": "all strings", "anchors": ["klayout_pex/util/multiple_choice.py:MultipleChoicePattern"]}
{"id": "C40", "title": "Report database category paths parse as they are written", "statement": "Splitting a report database category path yields the component names that were joined and quoted to form it.", "quantifier": "all lists of component names", "why_tests_cant": "all strings with dots, quotes and backslashes", "anchors": ["klayout_pex/klayout/repair_rdb.py:parse_category_path"]}
{"id": "C41", "title": "Report database repair is complete and idempotent", "statement": "After repair every category path referenced by an item exists in the category tree, existing categories keep their place, and repairing again changes nothing.", "quantifier": "all category trees and item lists", "why_tests_cant": "unbounded trees and paths", "anchors": ["klayout_pex/klayout/repair_rdb.py:repair_rdb_xml"]}
{"id": "C42", "title": "Capacitance lookup tables reflect the technology file", "statement": "For every technology file, the overlap / side-overlap lookup by two layer names returns a specification exactly if the file contains one for this pair, namely the last one, and loading never fails because of the pairs listed.", "quantifier": "all technology files", "why_tests_cant": "all lists of entries in all orders", "anchors": ["klayout_pex/tech_info.py:TechInfo.overlap_cap_by_layer_names", "klayout_pex/tech_info.py:TechInfo.side_overlap_cap_by_layer_names"]}
{"id": "C43", "title": "Layer lookup precedence", "statement": "The GDS number of a layer name is the one of the computed layer if there is one, otherwise the one of the original layer, otherwise an unknown layer is reported; lookups by name return the last entry of that name.", "quantifier": "all layer tables", "why_tests_cant": "all tables", "anchors": ["klayout_pex/tech_info.py:TechInfo.gds_pair"]}
{"id": "C44", "title": "Resistance unit conversion is exact and linear", "statement": "Milliohm conversions between technology file and extraction scale every value by exactly 1/1000 and are injective; contact resistance is scaled with the contact area so that n equal contacts have n-fold conductance.", "quantifier": "all values", "why_tests_cant": "all reals", "anchors": ["klayout_pex/tech_info.py:TechInfo.milliohm_to_ohm", "klayout_pex/rcx25/r/r_extractor.py:RExtractor.prepare_r_extractor_tech_pb"]}
{"id": "C45", "title": "Every extracted LVS layer is accounted for exactly once", "statement": "Each non-empty layer of the LVS database appears in exactly one group of the extraction context, the group of its GDS number; with blackboxing only the device layers are dropped.", "quantifier": "all LVS databases", "why_tests_cant": "any number and order of layers mapping to the same number", "anchors": ["klayout_pex/klayout/lvsdb_extractor.py:KLayoutExtractionContext.nonempty_extracted_layers"]}
{"id": "C46", "title": "Geometry survives conversion to and from protocol messages", "statement": "Converting points, boxes, polygons and regions to messages and back yields the same geometry with the same net annotation.", "quantifier": "all geometries", "why_tests_cant": "unbounded shapes", "anchors": ["klayout_pex/klayout/shapes_pb2_converter.py:ShapesConverter"]}
{"id": "C47", "title": "Schematic JSON uses one id per net", "statement": "In the JSON netlist two connections carry the same bit number iff they are on the nets with the same name; numbers are dense from 0.", "quantifier": "all netlists", "why_tests_cant": "any number and order of nets and devices", "anchors": ["klayout_pex/netlistsvg/netlist_json.py:NetlistJSONWriter"]}
{"id": "C48", "title": "A new log never destroys an older one", "statement": "Setting up the log file of a run keeps the content of every log file that existed before.", "quantifier": "all histories of runs", "why_tests_cant": "history and clock dependent", "anchors": ["klayout_pex/kpex_cli.py:KpexCLI.setup_logging"]}
{"id": "C49", "title": "Layer mapping between PDKs is consistent", "statement": "Converting a layout between PDKs maps each source layer to the target layer with the same canonical meaning, reports exactly the layers that have no counterpart, and never maps two source layers of different meaning to the same target layer.", "quantifier": "all layer tables", "why_tests_cant": "all tables", "anchors": ["convert_layout_pdk.py"]}
{"id": "C50", "title": "Contracting two nodes is an ideal short", "statement": "Connecting two distinct nodes of a resistor network leaves the network in which the second node is merged into the first: between the merged node and any other node the conductance is the sum of the two former conductances, all others are unchanged, and the merged-in node is gone.", "quantifier": "all networks reachable by any history of operations, all node pairs", "why_tests_cant": "any topology, including parallel and shared neighbours", "anchors": ["klayout_pex/rcx25/r/resistor_network.py:ResistorNetwork.connect_nodes"]}
{"id": "C51", "title": "The 2.5D CSV report and the expanded netlist agree", "statement": "Row k of the CSV report written by the 2.5D engine and device ext_k of the expanded netlist describe the same parasitic element: same pair of nets and same value; every entry of the extraction summary appears exactly once in both.", "quantifier": "all extraction summaries", "why_tests_cant": "all result tables; two independent loops must stay in the same order", "anchors": ["klayout_pex/kpex_cli.py:KpexCLI.run_kpex_2_5d_engine", "klayout_pex/rcx25/netlist_expander.py:RCX25NetlistExpander.expand"]}
{"id": "C52", "title": "The field-solver CSV report lists exactly the parasitic capacitors", "statement": "The CSV report written after a field-solver run has one row per parasitic capacitor of the top circuit, in netlist order, with its name, the names of the nets at its two ends and its capacitance in fF (rounded); other devices are not listed.", "quantifier": "all netlists", "why_tests_cant": "all device lists", "anchors": ["klayout_pex/klayout/netlist_csv.py:NetlistCSVWriter.write_csv"]}
{"id": "C53", "title": "Field-solver flow from the log to the netlist", "statement": "If the last capacitance matrix printed in the solver log has the values V for conductors named after nets, then the flow produces a netlist whose added capacitors have, over all conductors but the first, exactly the symmetrised printed matrix (in F) as nodal capacitance matrix, and a CSV report that shows each added capacitor.", "quantifier": "all logs, matrices of any dimension, netlists", "why_tests_cant": "composition of four components over all logs", "anchors": ["klayout_pex/kpex_cli.py:KpexCLI.run_fastercap_extraction", "klayout_pex/kpex_cli.py:KpexCLI.run_fastcap_extraction"]}
{"id": "C54", "title": "Written reference points lie on the outside of each surface", "statement": "The reference point written for a triangle lies one unit away from its plane on the side of its outside material: below for dielectric surfaces and conductor bottoms, above for conductor tops, to the left of the wall for vertical surfaces, and on the other side after reversing the triangle.", "quantifier": "all non-degenerate triangles in hull orientation", "why_tests_cant": "all coordinates", "anchors": ["klayout_pex/fastercap/fastercap_model_generator.py:Triangle.outside_reference_point", "klayout_pex/fastercap/fastercap_model_generator.py:FasterCapModelGenerator.generate_hdiel", "klayout_pex/fastercap/fastercap_model_generator.py:FasterCapModelGenerator.triangulate"]}
{"id": "C55", "title": "Conductors of the 3D model are the layout shapes at their stack heights", "statement": "In the model given to the field solver a net fills exactly the space of its extracted shapes: metal shapes at the height and thickness of their metal layer, via shapes from the top of their metal over the via thickness, diffusion shapes 0.1 µm and contacts their thickness high from height 0; VSUBS additionally fills the substrate plane under the enlarged bounding box except within 1 µm of diffusion.", "quantifier": "all process stacks, layouts, nets, points and heights", "why_tests_cant": "all layouts and stacks; geometric coverage is a statement about every point", "anchors": ["klayout_pex/fastercap/fastercap_input_builder.py:FasterCapInputBuilder.build"]}
{"id": "C56", "title": "Dielectrics of the 3D model fill the space the process stack gives them", "statement": "In the model given to the field solver each dielectric is exactly where the process stack puts it: field oxide below the first metal; each sidewall or conformal dielectric around the shapes of its metal, grown by the sum of the widths up the chain of references and as high as the sum of their heights; conformal dielectrics additionally beside the shapes; the simple dielectric in the rest of the height up to the next metal.", "quantifier": "all process stacks with distinct layer names, layouts, points and heights", "why_tests_cant": "all stacks with chains of any length; a statement about every point", "anchors": ["klayout_pex/fastercap/fastercap_input_builder.py:FasterCapInputBuilder.build", "klayout_pex/tech_info.py:TechInfo.simple_dielectric_above_metal", "klayout_pex/tech_info.py:TechInfo.sidewall_dielectric_layer"]}
{"id": "C57", "title": "The dielectric stack has no gaps", "statement": "If every metal layer is followed by a simple dielectric that is not filtered out, no point inside the enlarged bounding box between height 0 and 5 µm above the bottom of the last metal is left without a dielectric.", "quantifier": "all process stacks with distinct layer names, layouts, points and heights", "why_tests_cant": "all stacks, chains and layouts; a statement about every point", "anchors": ["klayout_pex/fastercap/fastercap_input_builder.py:FasterCapInputBuilder.build", "klayout_pex/tech_info.py:TechInfo.simple_dielectric_above_metal"]}
{"id": "C58", "title": "Every dielectric used in the model has its permittivity declared", "statement": "The 3D model never uses a material that was not declared, and the declared permittivity of a material is the one the process stack gives for the field oxide or for the dielectric layer of that name that passes the filter.", "quantifier": "all process stacks with distinct layer names, filters and layouts", "why_tests_cant": "all stacks and filters", "anchors": ["klayout_pex/fastercap/fastercap_input_builder.py:FasterCapInputBuilder.build", "klayout_pex/tech_info.py:TechInfo.dielectric_by_name"]}
{"id": "C59", "title": "An edge couples to its nearest lateral neighbour and to what is visible above and below", "statement": "For every interval of a layer edge: a sidewall capacitance is recorded to the nearest shape of another net on the same layer, and only to it; the fringe capacitance recorded to a shape on another layer is the one of the parts of the shape that are neither behind the nearest lateral neighbour nor covered by a layer strictly between the two layers; with halo scaling, the fringe capacitance recorded from an interval to one layer is at most its length times the nominal capacitance per length. A whole run consists of exactly these records for all intervals of all edges of all layers.", "quantifier": "all layer stacks, edges, neighbourhoods and technologies with a specification for the occurring pairs", "why_tests_cant": "all neighbourhoods; shielding is a statement about every point of the halo", "anchors": ["klayout_pex/rcx25/c/sidewall_and_fringe_extractor.py:SidewallAndFringeExtractor.PEXEdgeNeighborhoodVisitor.on_edge", "klayout_pex/rcx25/c/sidewall_and_fringe_extractor.py:SidewallAndFringeExtractor.PEXEdgeNeighborhoodVisitor.emit_fringe", "klayout_pex/rcx25/c/sidewall_and_fringe_extractor.py:SidewallAndFringeExtractor.PEXEdgeNeighborhoodVisitor.emit_sidewall"]}
{"id": "C60", "title": "Pins are the labels over pin shapes, with the net of the shape underneath", "statement": "The pins of the extraction context are, layer by layer, exactly the labels that lie on a shape of the pin layer drawn with the same GDS number; a pin carries the text and position of its label and the net of a pin shape containing that position. Each such label gives one pin.", "quantifier": "all technologies, LVS databases and label positions", "why_tests_cant": "any number of layers, labels and overlapping pin shapes", "anchors": ["klayout_pex/klayout/lvsdb_extractor.py:KLayoutExtractionContext.pins_pb2_by_layer", "klayout_pex/klayout/lvsdb_extractor.py:KLayoutExtractionContext.pins_of_layer"]}
{"id": "C61", "title": "Every device is reported with all its terminals, each with its net and shapes", "statement": "The devices reported for a layout are exactly the devices of the circuit of the top cell, in order and each once; every device lists each of its terminals once with the name of the net connected to it and with its shapes per layer.", "quantifier": "all circuits, devices, terminals and nets", "why_tests_cant": "unbounded circuits; the shapes of a terminal have to be found among the references of all nets", "anchors": ["klayout_pex/klayout/lvsdb_extractor.py:KLayoutExtractionContext.devices_by_name"]}
{"id": "C62", "title": "The resistor extractor is told the technology of the stack", "statement": "The technology description for R extraction has exactly one conductor per LVS layer of an implant or metal and exactly one via per LVS layer of a contact or via whose resistance the technology file gives; a metal has its sheet resistance in Ohm, a via the resistance of one contact in Ohm times the area of one contact, and it joins the layers below and above in the process stack.", "quantifier": "all technologies, process stacks and LVS databases", "why_tests_cant": "all combinations of layers, splits of layers and missing entries", "anchors": ["klayout_pex/rcx25/r/r_extractor.py:RExtractor.prepare_r_extractor_tech_pb", "klayout_pex/tech_info.py:TechInfo.contact_by_contact_lvs_layer_name"]}
{"id": "C63", "title": "R extraction results carry the net they belong to", "statement": "The result of R extraction has one network per requested net, named after it, with the nodes and elements that the extractor returned; every node at a pin or terminal carries the name of the net, every inner node its own name. If the extractor returns nodes on declared layers and refers to existing ports, no lookup fails.", "quantifier": "all requests and all outputs of the resistor extractor", "why_tests_cant": "any networks and port tables", "anchors": ["klayout_pex/rcx25/r/r_extractor.py:RExtractor.extract"]}
{"id": "C64", "title": "Ports lie on layers that the extractor was told about", "statement": "The layer of every pin and of every terminal shape on a conductor layer is the layer of the conductor declared for it in the technology description of the same request.", "quantifier": "all technologies and LVS databases", "why_tests_cant": "depends on how many LVS layers share a GDS number", "anchors": ["klayout_pex/rcx25/r/r_extractor.py:RExtractor.prepare_request", "klayout_pex/klayout/lvsdb_extractor.py:KLayoutExtractionContext.devices_by_name", "klayout_pex/klayout/lvsdb_extractor.py:KLayoutExtractionContext.build_LVS_layer_map"]}
{"id": "C65", "title": "The 2.5D engine sees the substrate and every metal of the cell, in stack order", "statement": "The layers handed to the 2.5D extractors are the substrate first and then every metal of the process stack that has extracted shapes, each layer name once and in the order of the stack; a layer has exactly the shapes of all its source layers, and the substrate covers the bounding box of the layout enlarged by the halo. Nothing else decides the list, so it is unique. It can be built exactly if every metal has a computed layer.", "quantifier": "all technologies, extraction contexts and halos", "why_tests_cant": "any number of metals, shared GDS numbers and source layers", "anchors": ["klayout_pex/rcx25/extractor.py:RCX25Extractor.extract", "klayout_pex/rcx25/extractor.py:RCX25Extractor.shapes_of_layer", "klayout_pex/klayout/lvsdb_extractor.py:KLayoutExtractionContext.top_cell_bbox", "klayout_pex/klayout/lvsdb_extractor.py:KLayoutExtractionContext.shapes_of_layer"]}
{"id": "C66", "title": "The capacitors of the 2.5D netlist add up to the capacitance of the layout", "statement": "After a 2.5D run with capacitances, the parasitic capacitors of the netlist between two different nets add up to: for every pair of layers the area where the one net faces the other (no foreign net in between) times the capacitance per area of this pair of layers, plus for every edge the sidewall capacitance with the nearest other polygon of its layer in front of it, plus for every edge the fringe capacitance with what is seen from it on the other layers; the first and last unit of an edge and single visible rectangles of at most 0.0001 fF are not counted, and the fringe capacitances are rounded.", "quantifier": "all technologies, layouts without shorts whose edges run along the axes in steps of more than one unit, pairs of nets and PEX modes that include capacitances", "why_tests_cant": "goes through layer collection, overlap, sidewall and fringe extraction, summary and netlist for unbounded layouts", "anchors": ["klayout_pex/rcx25/extractor.py:RCX25Extractor.extract", "klayout_pex/rcx25/c/overlap_extractor.py:OverlapExtractor.extract", "klayout_pex/rcx25/c/sidewall_and_fringe_extractor.py:SidewallAndFringeExtractor.extract", "klayout_pex/rcx25/netlist_expander.py:RCX25NetlistExpander.expand", "klayout_pex/kpex_cli.py:KpexCLI.run_kpex_2_5d_engine"]}
{"id": "C67", "title": "The extraction files of Magic are read completely", "statement": "Every line of an extraction file that describes a port, a node (or the substrate) or a device gives exactly one entry with the net, the layer and the numbers written in the line, in the order of the lines, and nothing else gives an entry; the same holds for resistor nodes and resistors. Reading fails exactly for an unknown type of device and for a resistor value that is not a number.", "quantifier": "all files, i.e. all lists of lines of text", "why_tests_cant": "unbounded text; every net name Magic can produce", "anchors": ["klayout_pex/magic/magic_ext_file_parser.py:parse_magic_ext_file", "klayout_pex/magic/magic_ext_file_parser.py:parse_magic_res_ext_file"]}
{"id": "C68", "title": "A Magic run is read cell by cell from its own files", "statement": "Reading the directory of a Magic run gives every cell that has an extraction file exactly once, with what its own file says, and with the resistors of its own resistor file exactly if there is one. It fails exactly if there is no extraction file or one of these files is not readable.", "quantifier": "all directories with any file names and contents", "why_tests_cant": "any number of cells and any cell names", "anchors": ["klayout_pex/magic/magic_ext_file_parser.py:parse_magic_pex_run"]}
{"id": "C69", "title": "The Magic report shows every extracted object at its place", "statement": "The report database of a Magic run has, for every cell, one entry per port, node, device, resistor node and resistor of the extraction files, in their order and under their names; the position of an entry in micrometres is the one given by Magic, and a resistor is shown at the nodes it connects.", "quantifier": "all run directories and database units", "why_tests_cant": "any number of objects; negative coordinates; repeated names", "anchors": ["klayout_pex/magic/magic_log_analyzer.py:MagicLogAnalyzer.analyze", "klayout_pex/magic/magic_log_analyzer.py:MagicLogAnalyzer.analyze_cell", "klayout_pex/kpex_cli.py:KpexCLI.run_magic_extraction"]}
{"id": "C70", "title": "The Magic script extracts what was asked for", "statement": "The script given to Magic reads the layout, flattens the requested cell, extracts once into the run directory and writes the netlist to the requested path as its last action. Resistances are extracted exactly in the modes RC and R and capacitances are left out exactly in mode R; the thresholds and the tolerance are passed on for what is extracted, and the halo is set exactly if given, to the nearest multiple of 5 nm, before the extraction.", "quantifier": "all paths, cell names, thresholds, halos and modes", "why_tests_cant": "every combination of options and every path", "anchors": ["klayout_pex/magic/magic_runner.py:prepare_magic_script"]}
{"id": "C71", "title": "The geometry check tells closed surfaces from open ones", "statement": "The check of the generated 3D model always ends. If it reports no errors, the surface of every dielectric and of every net has no side twice and no open boundary: every point of every side of a triangle lies on a side of opposite direction. Conversely no error is reported if all these surfaces are closed and sides of the same direction do not overlap.", "quantifier": "all sets of triangles, database units and iteration orders of sets", "why_tests_cant": "edges are split repeatedly in an order that depends on hashing; termination and completeness hold for unbounded meshes only by proof", "anchors": ["klayout_pex/fastercap/fastercap_model_generator.py:FasterCapModelGenerator.check", "klayout_pex/fastercap/fastercap_model_generator.py:FasterCapModelGenerator._check_tris", "klayout_pex/fastercap/fastercap_model_generator.py:FasterCapModelGenerator._split_edges"]}
{"id": "C72", "title": "The STL files show exactly the surfaces of the model", "statement": "For every material and every net with a surface, one STL file named after it is written that contains the triangles of this surface, each once, in order and turned to face outside; nothing else is written, provided that the names contain no slash.", "quantifier": "all models, names without slash, prefixes and formats of numbers", "why_tests_cant": "any number of materials, nets and triangles", "anchors": ["klayout_pex/fastercap/fastercap_model_generator.py:FasterCapModelGenerator.dump_stl", "klayout_pex/fastercap/fastercap_model_generator.py:FasterCapModelGenerator._write_as_stl"]}
{"id": "C73", "title": "Vertical surfaces stand on the edges of the layout", "statement": "The vertical surface generated for an edge of a layer between two heights has its four corners at the ends of the edge and at these heights; edges of the same direction on one line are put into the same plane.", "quantifier": "all edges with integer coordinates, database units and heights on the grid", "why_tests_cant": "all directions of edges, including those without rational unit vector", "anchors": ["klayout_pex/fastercap/fastercap_model_generator.py:FasterCapModelGenerator.generate_v_surface", "klayout_pex/fastercap/fastercap_model_generator.py:FasterCapModelGenerator.triangulate"]}
{"id": "C74", "title": "External programs are logged completely and their failure is an exception", "statement": "For every external program that is started, the log file holds the complete output of the program (line ends unified) whether it succeeds or not, the console shows its lines, and a program that is not found or returns an exit code other than 0 ends the run with an exception.", "quantifier": "all programs (any output, exit code and effect on files), arguments and working directories", "why_tests_cant": "depends on the program's behaviour, which a test fixes", "anchors": ["klayout_pex/fastercap/fastercap_runner.py:run_fastercap", "klayout_pex/fastcap/fastcap_runner.py:run_fastcap", "klayout_pex/magic/magic_runner.py:run_magic", "klayout_pex/klayout/lvs_runner.py:LVSRunner.run_klayout_lvs"]}
{"id": "C75", "title": "External programs get exactly the requested options", "statement": "FasterCap and FastCap2 are called with the list file and with each option exactly as requested, Magic with the configuration file and the script, KLayout with every LVS setting once and with paths that are valid in any working directory.", "quantifier": "all option values, paths and working directories", "why_tests_cant": "every combination of options", "anchors": ["klayout_pex/fastercap/fastercap_runner.py:run_fastercap", "klayout_pex/fastcap/fastcap_runner.py:run_fastcap", "klayout_pex/magic/magic_runner.py:run_magic", "klayout_pex/klayout/lvs_runner.py:LVSRunner.run_klayout_lvs"]}
{"id": "C76", "title": "Results of a field solver run are in the output directory and come from its log", "statement": "After a successful field solver run the log, the raw and averaged matrices and the netlists are in the output directory and are computed from the output of this very run; other files are untouched. This does not depend on how the output directory is given. A failed solver leaves nothing but its log.", "quantifier": "all output directories (absolute or relative), working directories, cell names without slash and solvers", "why_tests_cant": "depends on the working directory of the process, which one of the engines changes", "anchors": ["klayout_pex/kpex_cli.py:KpexCLI.run_fastcap_extraction", "klayout_pex/kpex_cli.py:KpexCLI.run_fastercap_extraction", "klayout_pex/fastcap/fastcap_runner.py:run_fastcap"]}
{"id": "C77", "title": "Exactly the requested engines run", "statement": "A run executes exactly the requested engines, in the order Magic, FasterCap, FastCap2, 2.5D; LVS is prepared once and only if an engine other than Magic is requested; the first failure ends the run.", "quantifier": "all combinations of engines and all behaviours of the steps", "why_tests_cant": "every combination of requests and failures", "anchors": ["klayout_pex/kpex_cli.py:KpexCLI.main"]}
{"id": "C78", "title": "The programs come from the environment or have their usual names", "statement": "Every executable is the one named by its environment variable or else has its default name; the Magic configuration file is the one given on the command line, or the one of the PDK that PDKPATH and PDK name. Missing settings for Magic do not affect runs of other engines.", "quantifier": "all environments and arguments", "why_tests_cant": "every combination of set and unset variables", "anchors": ["klayout_pex/env.py:Env.from_os_environ", "klayout_pex/env.py:EnvVar.default_value", "klayout_pex/kpex_cli.py:KpexCLI.parse_args"]}
{"id": "C79", "title": "The report shows every capacitance with its shapes", "statement": "The report database of the 2.5D engine has, below the category of two layers and two nets, one entry for every capacitance that the netlist counts for them, numbered from 1, with its value and the polygons or edges it was computed from, and no other entry.", "quantifier": "all sequences of recorded overlap, sidewall and fringe capacitances and neighborhoods, all layer and net names", "why_tests_cant": "needs every interleaving of the records, whose entries share categories and counters", "anchors": ["klayout_pex/rcx25/extraction_reporter.py:ExtractionReporter.output_overlap", "klayout_pex/rcx25/extraction_reporter.py:ExtractionReporter.output_sidewall", "klayout_pex/rcx25/extraction_reporter.py:ExtractionReporter.output_sideoverlap"]}
{"id": "C80", "title": "The report shows the resistor networks", "statement": "The report of a resistor extraction shows each network with all its nodes at their locations and all its resistors, between the right nodes and with their value in Ohm or Milliohm, in order, and nothing else; it can be written exactly if all nodes have a location and all resistors connect nodes of their network.", "quantifier": "all results of the resistor extractor", "why_tests_cant": "all networks, with any node ids", "anchors": ["klayout_pex/rcx25/extraction_reporter.py:ExtractionReporter.output_rex_result", "klayout_pex/rcx25/extraction_reporter.py:ExtractionReporter.output_element"]}
{"id": "C81", "title": "The report shows the request of the resistor extraction", "statement": "The report shows every conductor, via, device with its parameters and terminals, pin and net of the request, in order, with their shapes; writing the report never ends the run.", "quantifier": "all requests, and all technologies and layouts they are prepared from", "why_tests_cant": "all technologies; the failure needs a via layer that the process stack does not describe", "anchors": ["klayout_pex/rcx25/extraction_reporter.py:ExtractionReporter.output_rex_request", "klayout_pex/rcx25/extraction_reporter.py:ExtractionReporter.output_rex_tech", "klayout_pex/rcx25/r/r_extractor.py:RExtractor.prepare_r_extractor_tech_pb"]}
{"id": "C82", "title": "The 3D model can be built for the shipped technologies", "statement": "With sky130A or ihp_sg13g2 the 3D model of every layout is described without an exception and without an endless loop, whatever dielectrics are filtered out; every dielectric has exactly the extent that the process stack gives it, and one permittivity, the one of the technology.", "quantifier": "both shipped technologies, all layouts and all dielectric filters", "why_tests_cant": "all layouts; the conditions on the process stack under which the builder is correct are met only by careful naming", "anchors": ["cxx/gen_tech_pb/pdk/sky130A.cpp", "cxx/gen_tech_pb/pdk/ihp_sg13g2.cpp", "klayout_pex/fastercap/fastercap_input_builder.py:FasterCapInputBuilder.build"]}
{"id": "C83", "title": "No void in the 3D models of the shipped technologies", "statement": "With sky130A or ihp_sg13g2 and all dielectrics, the space from the surface of the silicon to 5 µm above the bottom of the highest metal is filled with dielectric over the whole area, for every layout.", "quantifier": "both shipped technologies, all layouts, all points", "why_tests_cant": "all layouts and all points", "anchors": ["cxx/gen_tech_pb/pdk/sky130A.cpp", "cxx/gen_tech_pb/pdk/ihp_sg13g2.cpp", "klayout_pex/fastercap/fastercap_input_builder.py:FasterCapInputBuilder.build"]}
{"id": "C84", "title": "Contacts and vias of the shipped technologies connect their layers", "statement": "With sky130A or ihp_sg13g2 every contact and via ends inside of the metal named above it, and wherever a net has shapes on the lower layer, the via and the upper metal, its conductor in the 3D model is solid from the bottom of the lower layer to the top of the upper one.", "quantifier": "both shipped technologies, all layouts, nets and points", "why_tests_cant": "all layouts; a via that is too short would split a net in the field solver without any message", "anchors": ["cxx/gen_tech_pb/pdk/sky130A.cpp", "cxx/gen_tech_pb/pdk/ihp_sg13g2.cpp", "klayout_pex/fastercap/fastercap_input_builder.py:FasterCapInputBuilder.build"]}
{"id": "C85", "title": "Wrapping dielectrics are as high as the technology says", "statement": "A dielectric that wraps a metal, directly or around other dielectrics, reaches as high as the thickness of the metal and the given heights above it add up to.", "quantifier": "all technologies, chains of wrapping dielectrics and layouts", "why_tests_cant": "all chains of dielectrics", "anchors": ["klayout_pex/fastercap/fastercap_input_builder.py:FasterCapInputBuilder.build", "cxx/gen_tech_pb/pdk/sky130A.cpp", "cxx/gen_tech_pb/pdk/ihp_sg13g2.cpp"]}
{"id": "C86", "title": "The 2.5D extraction runs to the end", "statement": "With a shipped technology the 2.5D extraction of capacitances of every cell runs to the end and yields a netlist, for every side halo other than 0.", "quantifier": "both shipped technologies, all cells", "why_tests_cant": "all layouts; one missing entry of the technology or one particular distance ends the run", "anchors": ["klayout_pex/rcx25/extractor.py:RCX25Extractor.extract", "klayout_pex/rcx25/c/sidewall_and_fringe_extractor.py", "cxx/gen_tech_pb/pdk/sky130A.cpp", "cxx/gen_tech_pb/pdk/ihp_sg13g2.cpp"]}
{"id": "C87", "title": "Extracted capacitances are not negative", "statement": "With a shipped technology the capacitance that the netlist of the 2.5D extraction gives to two nets is never negative.", "quantifier": "both shipped technologies, all cells, all pairs of nets", "why_tests_cant": "all layouts; the sign changes at one particular distance between two nets", "anchors": ["klayout_pex/rcx25/c/sidewall_and_fringe_extractor.py", "klayout_pex/rcx25/netlist_expander.py:RCX25NetlistExpander.expand", "cxx/gen_tech_pb/pdk/sky130A.cpp", "cxx/gen_tech_pb/pdk/ihp_sg13g2.cpp"]}
{"id": "C88", "title": "The resistor extraction accepts every layout of a shipped technology", "statement": "With sky130A or ihp_sg13g2 the resistor extraction can be set up for every cell that LVS accepts: no layer that LVS extracts makes the run end with an exception.", "quantifier": "both shipped technologies, all LVS databases", "why_tests_cant": "all layouts; one name that is used twice in the technology decides", "anchors": ["klayout_pex/rcx25/r/r_extractor.py:RExtractor.prepare_r_extractor_tech_pb", "cxx/gen_tech_pb/pdk/sky130A.cpp", "cxx/gen_tech_pb/pdk/ihp_sg13g2.cpp"]}
{"id": "C89", "title": "The resistor extractor is told every connection of the shipped technologies", "statement": "With sky130A or ihp_sg13g2 the resistor extractor gets, for every layout, each conductor with its sheet resistance and each contact and via of the process stack with its resistance, and each contact or via joins the layer that carries it in the process stack with the metal above.", "quantifier": "both shipped technologies, all LVS databases", "why_tests_cant": "all layouts; a missing via splits nets without an error", "anchors": ["klayout_pex/rcx25/r/r_extractor.py:RExtractor.prepare_r_extractor_tech_pb", "klayout_pex/tech_info.py:TechInfo.via_resistance_by_layer_name", "cxx/gen_tech_pb/pdk/sky130A.cpp", "cxx/gen_tech_pb/pdk/ihp_sg13g2.cpp"]}
{"id": "C90", "title": "Sidewall capacitance only between edges that face each other freely", "statement": "Two nets get sidewall capacitance for a piece of an edge only if the other net faces this piece on the same layer and no shape of the layer lies in between.", "quantifier": "all layouts, layers, edges, columns and distances", "why_tests_cant": "all shapes; a shape that bends around its own edge decides", "anchors": ["klayout_pex/rcx25/c/sidewall_and_fringe_extractor.py"]}
{"id": "C91", "title": "Sidewall capacitance of two parallel wires", "statement": "Two parallel wires of length L at a distance d on a layer with nothing else get the sidewall capacitance C·L'/(d + offset), where L' is L without the first and the last database unit, if d is below the side halo, and none otherwise.", "quantifier": "all pairs of wires, lengths, widths, distances, technologies", "why_tests_cant": "all lengths and distances", "anchors": ["klayout_pex/rcx25/c/sidewall_and_fringe_extractor.py"]}
{"id": "C92", "title": "Extracted capacitances do not depend on the position or orientation of the cell", "statement": "If a layout is shifted, turned by a multiple of 90 degrees or mirrored, the 2.5D extraction gives every two nets the same capacitance, up to the rounding of the single contributions.", "quantifier": "all technologies, layouts, displacements, turns and reflections, pairs of nets", "why_tests_cant": "all layouts and motions; the extractor treats each orientation of an edge by a transformation of its own", "anchors": ["klayout_pex/rcx25/extractor.py:RCX25Extractor.extract", "klayout_pex/rcx25/c/sidewall_and_fringe_extractor.py", "klayout_pex/rcx25/c/overlap_extractor.py"]}
{"id": "C93", "title": "The capacitance of two nets depends only on what is near", "statement": "If two layouts have the same layers and the same shapes of two nets other than the substrate, and agree within the side halo of these shapes, the 2.5D extraction gives these two nets the same capacitance, up to the rounding of the single contributions.", "quantifier": "all technologies, pairs of layouts and pairs of nets", "why_tests_cant": "all layouts; shapes arbitrarily far away, in any number", "anchors": ["klayout_pex/rcx25/extractor.py:RCX25Extractor.extract", "klayout_pex/rcx25/c/sidewall_and_fringe_extractor.py", "klayout_pex/rcx25/c/overlap_extractor.py"]}
{"id": "C94", "title": "Pins of the shipped technologies", "statement": "With sky130A or ihp_sg13g2 a text on the label layer of a conductor that lies on a pin shape of this conductor becomes a pin of the conductor, on the net of the pin shape, and there are no other pins.", "quantifier": "both shipped technologies, all LVS databases and labels", "why_tests_cant": "all layouts; a name that the technology gives twice makes all pins of a metal vanish without an error", "anchors": ["klayout_pex/klayout/lvsdb_extractor.py:KLayoutExtractionContext.pins_of_layer", "cxx/gen_tech_pb/pdk/sky130A.cpp", "cxx/gen_tech_pb/pdk/ihp_sg13g2.cpp"]}
{"id": "C95", "title": "Layouts can be converted between the shipped technologies, there and back", "statement": "With the layer files of the repository every layout is converted without an error; a layout of sky130A is taken for one of sky130A and one of sg13g2 for one of sg13g2; every shape is put on exactly the layers of the table; and a layout with layers of the table that is converted there and back has the same shapes on each layer.", "quantifier": "all layouts (any layers, any shapes), both directions", "why_tests_cant": "all layouts; numbers that both technologies use decide about single layouts", "anchors": ["convert_layout_pdk.py", "pdk/sky130A/libs.tech/kpex/sky130A.lyp", "pdk/ihp_sg13g2/libs.tech/kpex/sg13g2.lyp"]}
{"id": "C96", "title": "The capacitance of a plate over the substrate", "statement": "For a layout with a single rectangle on one layer the 2.5D extraction gives its net and the substrate the capacitance area × capacitance per area + circumference (each side two database units shorter) × capacitance per length × the part of the fringe field that lies within the side halo, up to the rounding of the single contributions.", "quantifier": "all technologies, layers, sizes and positions of the rectangle, halos and database units", "why_tests_cant": "all sizes; the layout is over the real numbers of the technology", "anchors": ["klayout_pex/rcx25/extractor.py:RCX25Extractor.extract", "klayout_pex/rcx25/c/sidewall_and_fringe_extractor.py", "klayout_pex/rcx25/c/overlap_extractor.py"]}
{"id": "C97", "title": "Extracted capacitances do not depend on the names of the nets", "statement": "If the nets of a layout other than the substrate are renamed without two nets getting the same name, the 2.5D extraction gives every two renamed nets the capacitance of the original nets, up to the rounding of the single contributions.", "quantifier": "all technologies, layouts, renamings and pairs of nets", "why_tests_cant": "all layouts and names; the order of names decides how couplings are stored", "anchors": ["klayout_pex/rcx25/extractor.py:RCX25Extractor.extract", "klayout_pex/rcx25/c/sidewall_and_fringe_extractor.py", "klayout_pex/rcx25/c/overlap_extractor.py", "klayout_pex/rcx25/extraction_results.py:NetCoupleKey"]}
{"id": "C98", "title": "The svg command draws the circuit asked for", "statement": "netlist svg FILE starts the drawing tool exactly once, on a freshly written document of the circuit asked for - the one given with --cell, or the only top circuit - with the output path given with -o or, by default, <name of the netlist>.svg in the directory of the run. The output of the tool is kept in the log and a failure of the tool is an error. If there is no such circuit, or the tool is not found, nothing is written and the exit status is not 0.", "quantifier": "all netlist files, arguments, directory contents and behaviours of the drawing tool", "why_tests_cant": "the number of circuits of a netlist, the contents of the working directory and the behaviour of the external tool are unbounded", "anchors": ["klayout_pex/netlist/netlist_cli.py: NetlistCLI.run_netlistsvg, validate_args, main", "klayout_pex/netlistsvg/netlistsvg_runner.py: run_netlistsvg"]}
{"id": "C99", "title": "How the shapes of a net are drawn does not matter", "statement": "If on every layer every net covers the same area in two layouts of a cell, however this area is cut into polygons, overlapped, ordered and distributed over the source layers, the 2.5D extraction gives exactly the same netlist, or the same error, for both.", "quantifier": "all technologies, layouts, ways to draw them and extraction modes", "why_tests_cant": "all layouts and all ways to cut them", "anchors": ["klayout_pex/rcx25/extractor.py:RCX25Extractor.extract", "klayout_pex/klayout/lvsdb_extractor.py:KLayoutExtractionContext.shapes_of_layer"]}
{"id": "C100", "title": "Log messages are shown and kept according to the log level", "statement": "The log levels accepted are those listed in the help. Every message of a run at or above the chosen level is shown on the console exactly once, in order, and is kept, unless it is for debugging, exactly once and in order in both log files; messages below the level are nowhere. A louder level shows all that a quieter one shows. Logging a message never ends the run.", "quantifier": "all levels, all sequences of messages of a run, all texts", "why_tests_cant": "all sequences and texts of messages, which contain names of files, nets and cells", "anchors": ["klayout_pex/log/logger.py", "klayout_pex/kpex_cli.py:KpexCLI.setup_logging, validate_args", "klayout_pex/netlist/netlist_cli.py", "klayout_pex/util/argparse_helpers.py:render_enum_help"]}
{"id": "C101", "title": "A run of the Magic engine shows the results of this run", "statement": "With the Magic engine and a layout, Magic is started exactly once, with the configuration file and with a script that is in the directory of the run and does the requested extraction for the requested cell. The run succeeds only if Magic ends with code 0, and then the netlist shown and the entries of the report database are those Magic has written in this run; the complete output of Magic is in the log. Any other outcome is an exception.", "quantifier": "every set of arguments, every state of the file system and every behaviour of Magic (exit code, output, files written)", "why_tests_cant": "the outcome depends on what another program does and on what earlier runs left behind; tests use one installation of Magic and fresh directories", "anchors": ["klayout_pex/kpex_cli.py:run_magic_extraction", "klayout_pex/magic/magic_runner.py:run_magic", "klayout_pex/magic/magic_ext_file_parser.py:parse_magic_pex_run"]}
{"id": "C102", "title": "The layout conversion command writes the converted layout or changes nothing", "statement": "With a readable layout and an output path that can be written, the command writes the converted layout to this path and changes no other file. If the input is not a file or the output cannot be written, the argument check reports it, the exit status is 1 and nothing is changed. Every log level that is listed by the help text is accepted. Listing the layers reads and changes nothing.", "quantifier": "all arguments, layouts and states of the file system", "why_tests_cant": "the outcome depends on the file system and on all combinations of arguments; the repository has no test for this command", "anchors": ["convert_layout_pdk.py:main", "convert_layout_pdk.py:validate_args", "convert_layout_pdk.py:setup_logging"]}
{"id": "C103", "title": "The capacitance of two crossing wires", "statement": "For a layout of two rectangles on different layers that cross, the 2.5D extraction gives their nets the capacitance crossing area × overlap capacitance per area plus, for each of the four pieces of edge that lie over or under the other wire, its length × side overlap capacitance × the part of the fringe field up to the end of the other wire (or the side halo), up to the rounding of the single contributions; the parts of the wires away from the crossing contribute nothing to it.", "quantifier": "all technologies, pairs of layers, sizes and positions of the two wires, side halos and database units", "why_tests_cant": "a test fixes one crossing; the formula is a claim about every size and position", "anchors": ["klayout_pex/rcx25/extractor.py", "klayout_pex/rcx25/c/overlap_extractor.py", "klayout_pex/rcx25/c/sidewall_and_fringe_extractor.py"]}
{"id": "C104", "title": "A run of the 2.5D engine leaves its three results in the output directory", "statement": "If the extraction succeeds, the output directory contains afterwards the report database of this extraction, a CSV table with one line for each summarised capacitance and resistance (device, two nets, capacitance, resistance), which can be read back field by field, and the SPICE netlist with the same parasitics; the table and its path are shown; a report that KLayout cannot load gets a repaired copy beside it; no other file changes. If the extraction fails nothing changes.", "quantifier": "all extraction results, netlists, output directories (absolute or relative), cell names, earlier contents of the directory", "why_tests_cant": "the tests look at single values of one run; which files are touched, and from which results, is a statement about all runs", "anchors": ["klayout_pex/kpex_cli.py: run_kpex_2_5d_engine, main", "klayout_pex/klayout/repair_rdb.py: repair_rdb"]}
{"id": "C105", "title": "Engines requested together do not disturb each other", "statement": "When FasterCap, FastCap2 and the 2.5D engine are requested in any combination in one run, LVS, the input of the field solvers and the solvers themselves succeed and leave the files they find as they are, and the output directory is given by an absolute path if FastCap2 is requested, then the run succeeds, and afterwards the output directory holds the complete results of every requested engine, each computed from what that engine's own program printed or extracted; every file that is no result of a requested engine, such as those of Magic, is as it was before the engines.", "quantifier": "all combinations of engines, all solver programs and outputs, all extraction results, all output directories, cell names and states of the file system", "why_tests_cant": "The engines share one output directory and one working directory; a test runs one combination with one file system.", "anchors": ["klayout_pex/kpex_cli.py:main", "klayout_pex/kpex_cli.py:run_fastercap_extraction", "klayout_pex/kpex_cli.py:run_fastcap_extraction", "klayout_pex/kpex_cli.py:run_kpex_2_5d_engine"]}
{"id": "C106", "title": "The input of the field solvers comes from this run alone", "statement": "When the input of FasterCap and FastCap2 has been made, the list file in the input directory is the one of this run, every geometry file it names is there with the geometry of this run, whatever list and geometry files earlier runs have left, the STL files of all materials and nets with surfaces are there, all other files are unchanged, and the path handed to the solvers is that of the list file.", "quantifier": "every generated model with its materials and permittivities, every output directory with every set of files from earlier runs, whether or not the directories exist", "why_tests_cant": "a test starts in an empty directory; leftovers of earlier runs with other nets and other names of files are an unbounded set of histories", "anchors": [["klayout_pex/kpex_cli.py", "KpexCLI.build_fastercap_input"], ["klayout_pex/fastercap/fastercap_model_generator.py", "FasterCapModelGenerator.write_fastcap, dump_stl"]]}
{"id": "C107", "title": "The layouts of the LVS layers are complete", "statement": "After LVS the output directory has the annotated and the internal layout of the database and a layout with exactly the non-empty layers the technology knows (without those of devices when devices are blackboxed), each exactly once with its name, GDS numbers and shapes. If there are non-empty layers with GDS numbers the technology does not know, another layout has exactly these, each once. If no layer is known, the run ends with exit status 1 before any engine starts. No other file changes.", "quantifier": "every technology, every LVS database with any number of layers, several layers sharing GDS numbers, empty and unknown layers, with and without blackboxing, every state of the file system", "why_tests_cant": "a test has one layout with one set of layers; the property is about every mix of known, unknown, empty and merged layers", "anchors": [["klayout_pex/kpex_cli.py", "KpexCLI.main, dump_layers"], ["klayout_pex/klayout/lvsdb_extractor.py", "KLayoutExtractionContext.prepare_extraction, nonempty_extracted_layers"]]}
{"id": "C108", "title": "A complete run gives its results whatever earlier runs left", "statement": "If LVS gives a database with a layer the technology knows, the solvers succeed on the generated model, what they print can be read, and the extraction of the 2.5D engine succeeds, then a run with any choice of these engines succeeds, whatever files earlier runs have left in the output directory, and at its end the output directory has the layouts of the LVS layers, the input of the solvers and the results of every requested engine, made from what the solvers printed for this model.", "quantifier": "every choice of the engines FasterCap, FastCap2 and 2.5D, every database, model, solver and extraction, every cell name without a slash, every content of the output directory (an absolute path, if FastCap2 is requested)", "why_tests_cant": "a test runs one configuration in a fresh directory; that no step destroys what another one needs or leaves must hold for all combinations and all histories of the directory", "anchors": [["klayout_pex/kpex_cli.py", "KpexCLI.main, build_fastercap_input, run_fastercap_extraction, run_fastcap_extraction, run_kpex_2_5d_engine"]]}
{"id": "C109", "title": "The log analyzer writes the report of a Magic run", "statement": "Called with the directory of a Magic run, the log analyzer writes one report, at the path given or else at report.rdb.gz in that directory, that shows exactly the ports, nodes, devices, resistor nodes and resistors the extraction files of the directory state. A directory that does not exist is refused. When the tool fails, no file changes.", "quantifier": "every directory with any number of extraction files and other files, every output path, given or not, every state of the file system", "why_tests_cant": "the content of extraction files is unbounded, and the property is about all files of the file system, including those that must not change", "anchors": [["klayout_pex/magic/magic_log_analyzer.py", "_parse_args, main, MagicLogAnalyzer"], ["klayout_pex/magic/magic_ext_file_parser.py", "parse_magic_pex_run"]]}
{"id": "C110", "title": "A printed resistor network is complete", "statement": "The text of a resistor network has one line for every existing node, in the order of the identifiers, with its name or identifier and its place, and one line for every pair of connected nodes with the conductance (or resistance) between them, each pair once. Printing resistances fails exactly if a conductance is 0. Searching an area gives exactly the nodes whose places lie in it, each once.", "quantifier": "every network reachable by any history of adding nodes and resistors, connecting, removing and eliminating nodes; both kinds of text; every area", "why_tests_cant": "every history of operations leaves other tables; that a line is neither missing nor doubled depends on the symmetry of the tables in all reachable states", "anchors": [["klayout_pex/rcx25/r/resistor_network.py", "ResistorNetwork.to_string, ResistorNetworks.find_network_nodes"], ["klayout_pex/rcx25/r/conductance.py", "Conductance.res"]]}
{"id": "C111", "title": "The report shows lateral couplings at their place in the layout", "statement": "For every sidewall capacitance of the results the report has one entry with two edges: the first is part of the border of a polygon of the first net and as long as the entry says, the second runs along the second net in front of it, at the distance the entry says, with no other polygon of the layer in between. For every fringe capacitance there is one entry with an edge that is part of the border of a polygon of the inside net, the rectangle in front of this edge that is covered by the outside net on the outside layer and hidden neither by the own layer nor by a layer in between, and the lateral shield, if something of the layer lies in front of the edge; the capacitance is the one of the law for this edge and rectangle. There are no other entries.", "quantifier": "all layouts with any number of layers, nets and polygons, edges in all four directions, all technologies, with and without debug output", "why_tests_cant": "the extractor works in the coordinates of the turned edge and turns the shapes back; that this is right must hold for every edge in every direction with every neighbourhood", "anchors": [["klayout_pex/rcx25/c/sidewall_and_fringe_extractor.py", "SidewallAndFringeExtractor.extract, FringeEdgeNeighborhoodVisitor.on_edge, emit_sidewall, emit_fringe"], ["klayout_pex/rcx25/c/geometry_restorer.py", "GeometryRestorer"], ["klayout_pex/rcx25/extraction_reporter.py", "output_sidewall, output_sideoverlap"]]}
{"id": "C112", "title": "The report shows overlaps at their place in the layout", "statement": "For every overlap capacitance of the results the report has, below the category of the two layers and the two nets, one entry with the bottom polygon, the top polygon and an area. The polygons belong to the stated layers and nets. The area is exactly the part that both polygons share and where no polygon of a layer in between lies, except polygons of the bottom net. The stated capacitance is the size of this area times the capacitance per area that the technology gives for the two layers, and is positive. There are no other entries below the category.", "quantifier": "all layouts with any number of layers, nets and polygons, all technologies, all orders in which the neighbours are visited", "why_tests_cant": "the area depends on everything that was visited before; that shielding is neither lost nor counted twice must hold for every arrangement of polygons", "anchors": [["klayout_pex/rcx25/c/overlap_extractor.py", "OverlapExtractor.extract, PEXPolygonNeighborhoodVisitor.neighbors"], ["klayout_pex/rcx25/extraction_reporter.py", "output_overlap"]]}
{"id": "C113", "title": "Rounding errors of the network reduction stay small", "statement": "eliminate_all with floating point arithmetic terminates, raises no exception and leaves only connections between the nodes that were marked to be kept. For all voltages at the kept nodes, the power that the reduced network takes up, and so every conductance between the kept nodes, deviates from that of the original network by a relative error of at most (N + 3) k u and by the stars below 1e-10 S that are dropped. N is the number of connected nodes, k the number of nodes that are eliminated and u the relative error of one floating point operation.", "quantifier": "every network with non-negative conductances, built by any history of calls; every rounding of the additions, multiplications and divisions with a bounded relative error; all voltages of the kept nodes", "why_tests_cant": "rounding errors depend on all values and on the order of elimination, and could add up or cancel; a test sees one network with one rounding", "anchors": [["klayout_pex/rcx25/r/resistor_network.py", "ResistorNetwork.eliminate_all, eliminate_node, add_cond"], ["klayout_pex/rcx25/r/conductance.py", "Conductance.add_parallel"]]}
{"id": "C114", "title": "The script made from an LVS log names every layer", "statement": "From the log of an LVS run, the tool lvs_layer_names writes a Ruby script with one list of words, and these are exactly the layers for which the log states a number of polygons, each once and in alphabetical order. Everything else in the log is ignored.", "quantifier": "all logs, with any number of lines of any text", "why_tests_cant": "the lines of a log are arbitrary text; that no other line is taken for a layer and no layer is lost must hold for all of them", "anchors": [["lvs_layer_names.py", "main"]]}
{"id": "C115", "title": "Rounding errors of the summary stay small", "statement": "With floating point additions, the summary of the results of any number of cells lists exactly the pairs of nets between which capacitances were recorded, and the value for each pair deviates from the sum of the recorded values by at most the relative error of n + c + 5 roundings, where n is the number of values recorded between the two nets and c the number of cells. So recording the same values in another order, or visiting the cells in another order, changes a value by no more than this error. Rounding never decides whether there is a summary.", "quantifier": "all histories of recordings of non-negative capacitances in any number of cells, all pairs of nets, all roundings of the additions with a bounded relative error", "why_tests_cant": "rounding errors depend on all values and their order; a test sees one order with one rounding", "anchors": [["klayout_pex/rcx25/extraction_results.py", "ExtractionResults.summarize, CellExtractionResults.summarize, ExtractionSummary.merged"]]}
{"id": "C116", "title": "Rounding hardly changes a capacitance", "statement": "Computing with floats, the 2.5D engine records the same overlaps and sidewalls between the same nets as with exact arithmetic, each capacitance with a relative error of at most 5 or 10 roundings, and fails in the same cases. The fringe capacitance of a band next to an edge differs from the exact one by at most 1e-14 of the capacitance of everything between the edge and the far end of the band. The total that the summary reports for two nets has at most the relative error of its records plus one rounding for each record and cell and a few more.", "quantifier": "all layouts, technologies with non-negative values, edges and neighbourhoods, and all ways of rounding with a bounded relative error", "why_tests_cant": "the error depends on the order and size of all shapes of a layout, and rounding errors could change which capacitances are recorded at all", "anchors": ["klayout_pex/rcx25/c/overlap_extractor.py:neighbors", "klayout_pex/rcx25/c/sidewall_and_fringe_extractor.py:emit_sidewall", "klayout_pex/rcx25/c/sidewall_and_fringe_extractor.py:fringe_cap", "klayout_pex/rcx25/extraction_results.py:summarize"]}
{"id": "C117", "title": "The same results give the same report and netlist", "statement": "The CSV report of the 2.5D engine lists first the capacitors and then the resistors, each in alphabetical order of the names of their nets without regard to case, numbered from 1. Two runs that record the same capacitances and resistor networks, in whatever order they visit the cells and find the shapes, write the same rows in the same order and expand a netlist to the same netlist, with the same names of all devices.", "quantifier": "all histories of recordings in any number of cells and all permutations of them, all net names, all netlists", "why_tests_cant": "the order in which shapes are visited is up to KLayout and unspecified; a test sees one order", "anchors": [["klayout_pex/kpex_cli.py", "KpexCLI.run_kpex_2_5d_engine (CSV report)"], ["klayout_pex/rcx25/extraction_results.py", "NetCoupleKey.__lt__"], ["klayout_pex/rcx25/netlist_expander.py", "RCX25NetlistExpander.expand"]]}
{"id": "C118", "title": "The other look-ups of a technology answer from its file", "statement": "The attributes of a technology object that look up a layer by name, a layer of the process stack by name or by GDS pair, the contact of an n-well or diffusion by the name of its layer, and the contact above a metal, answer for every technology file with the last entry that the file lists under this key, and find nothing for a key that is not listed.", "quantifier": "all technology files and all keys", "why_tests_cant": "a test uses the shipped technologies, in which no key is listed twice; the rest of the program does not read these attributes", "anchors": [["klayout_pex/tech_info.py", "TechInfo.layer_info_by_name"], ["klayout_pex/tech_info.py", "TechInfo.process_stack_layer_by_name"], ["klayout_pex/tech_info.py", "TechInfo.process_stack_layer_by_gds_pair"], ["klayout_pex/tech_info.py", "TechInfo.contact_by_device_lvs_layer_name"], ["klayout_pex/tech_info.py", "TechInfo.contact_above_metal_layer_name"]]}
{"id": "C119", "title": "A node of a resistor network keeps its identity", "statement": "The identifier that a resistor network answers for a point stands for this point only: whatever is done with the network afterwards, its location is this point, or the node was removed and the identifier has no location any more and is never given out again. Asking again for the point answers the same identifier exactly as long as the node exists; different points never share an identifier. A node exists until a call names it for removal, elimination or contraction, or everything that is not marked as precious is eliminated. Asking for a point that has a node changes nothing; the nodes found on an edge are exactly those located on it, each once.", "quantifier": "all legal histories of calls on a network, all points and edges", "why_tests_cant": "identifiers are reused only in particular sequences of creating and removing nodes; a test runs a few sequences", "anchors": [["klayout_pex/rcx25/r/resistor_network.py", "ResistorNetwork.node_id"], ["klayout_pex/rcx25/r/resistor_network.py", "ResistorNetwork.location"], ["klayout_pex/rcx25/r/resistor_network.py", "ResistorNetwork.has_node"], ["klayout_pex/rcx25/r/resistor_network.py", "ResistorNetwork.node_ids"]]}
{"id": "C120", "title": "A place counts once for the overlap of two nets", "statement": "Where two nets lie above each other, the 2.5D engine counts the area once for every gap between them: of the pairs of layers that count over the same place for the same two nets, one lies completely above the other. A layer that is hidden from the other net by another layer of its own net does not add capacitance.", "quantifier": "all layouts without shorts, all layer stacks, all pairs of nets and all places", "why_tests_cant": "it depends on what lies on all layers over a place; tests use two or three layers of different nets", "anchors": [["klayout_pex/rcx25/c/overlap_extractor.py", "OverlapExtractor.extract, PEXPolygonNeighborhoodVisitor.neighbors"]]}
{"id": "C121", "title": "A larger side halo never loses capacitance", "statement": "Extracting the same layout with a larger side halo (option --halo) makes no parasitic capacitance of the netlist smaller, because everything that is seen within the smaller halo is also seen within the larger one.", "quantifier": "all layouts without shorts, all technologies, all pairs of halos and all pairs of nets", "why_tests_cant": "it compares two runs over every layout; tests fix one halo", "anchors": [["klayout_pex/kpex_cli.py", "KpexCLI.main"], ["klayout_pex/rcx25/c/sidewall_and_fringe_extractor.py", "PEXEdgeNeighborhoodVisitor.fringe_cap, SidewallAndFringeExtractor.extract"]]}
{"id": "C122", "title": "Extracted resistors keep nets apart and separate the ports of a net", "statement": "The netlist with resistances has a resistor between two nodes exactly if the resistor extractor reports an element between the corresponding nodes of a net, with the resistance that the elements between the two nodes have together; no chain of extracted resistors connects two different nets of the layout; and two device terminals of a net between which the extractor finds a resistance are separated by it in the netlist.", "quantifier": "all requests, all outputs of the resistor extractor, all netlists, modes R and RC", "why_tests_cant": "it is about paths of any length through networks of any shape, of all nets together", "anchors": [["klayout_pex/rcx25/r/r_extractor.py", "RExtractor.extract"], ["klayout_pex/rcx25/extraction_results.py", "CellExtractionResults.summarize"], ["klayout_pex/rcx25/netlist_expander.py", "RCX25NetlistExpander.expand"]]}
{"id": "C123", "title": "LVS joins what contacts and vias join", "statement": "With the LVS script that is shipped for a technology, a contact or via of the process stack and a conductor below or above it that lies at the same place belong to one net of the LVS result, so that the two conductors it connects are one net. Every layer that the technology file names as computed by LVS has its name in the script.", "quantifier": "all layouts, all places, both shipped technologies, all contacts of the process stack and all layers that belong to the conductors", "why_tests_cant": "whether layers that the script derives from drawn layers meet depends on every combination of drawn shapes and markers at a place; a test has some layouts", "anchors": [["pdk/sky130A/libs.tech/kpex/sky130.lvs", "derivations, connect, name"], ["pdk/ihp_sg13g2/libs.tech/kpex/sg13g2.lvs", "derivations, connect, name"], ["cxx/gen_tech_pb/pdk/sky130A.cpp", "buildProcessStackInfo, buildLVSComputedLayers"], ["cxx/gen_tech_pb/pdk/ihp_sg13g2.cpp", "buildProcessStackInfo, buildLVSComputedLayers"]]}
{"id": "C124", "title": "LVS keeps a conductor whole and knows its pins and texts", "statement": "With the LVS script that is shipped for a technology, touching shapes of one metal of the process stack belong to one net of the LVS result although the script divides the metal into several layers, and a pin or text that is drawn on a conductor belongs to its net.", "quantifier": "all layouts, all touching places, both shipped technologies, all metals of the process stack and all layers that belong to them", "why_tests_cant": "it depends on every combination of drawn shapes and markers at two places; a test has some layouts", "anchors": [["pdk/sky130A/libs.tech/kpex/sky130.lvs", "derivations, connect"], ["pdk/ihp_sg13g2/libs.tech/kpex/sg13g2.lvs", "derivations, connect"], ["cxx/gen_tech_pb/pdk/sky130A.cpp", "buildLVSComputedLayers"], ["cxx/gen_tech_pb/pdk/ihp_sg13g2.cpp", "buildLVSComputedLayers"]]}
{"id": "C125", "title": "A metal resistor separates two nets", "statement": "With the LVS script that is shipped for a technology, a resistor marker across a wire divides it into two nets: in a layout with shapes of one metal and of its resistor marker only, two places of the metal belong to one net exactly if they are connected by touching places of the metal outside the marker.", "quantifier": "all such layouts of any shape, both shipped technologies, gate poly and all metals that have a resistor marker", "why_tests_cant": "paths have any length and the resistors any shape; a test draws a few wires", "anchors": [["pdk/sky130A/libs.tech/kpex/sky130.lvs", "derivations, connect"], ["pdk/ihp_sg13g2/libs.tech/kpex/sg13g2.lvs", "derivations, connect"]]}
{"id": "C126", "title": "LVS joins only what contacts and vias join", "statement": "With the LVS script that is shipped for a technology, two shapes belong to one net only if there is a chain of touching drawn shapes between them that changes from one conductor to another only at a drawn contact or via that joins the two. So wires of different metals that cross are different nets if there is no contact or via, and if a via is not drawn at all, nothing above it is connected with anything below it.", "quantifier": "all layouts, all chains of touching shapes of any length, both shipped technologies, all conductors above the silicon", "why_tests_cant": "shorts come from any of some hundred layers that a script derives for devices, which a test draws only a few of", "anchors": [["pdk/sky130A/libs.tech/kpex/sky130.lvs", "derivations, connect"], ["pdk/ihp_sg13g2/libs.tech/kpex/sg13g2.lvs", "derivations, connect"], ["pdk/ihp_sg13g2/libs.tech/kpex/rule_decks/cap_derivations.lvs", "mim_btm, cmim_btm"], ["cxx/gen_tech_pb/pdk/sky130A.cpp", "buildProcessStackInfo, buildLVSComputedLayers"]]}
{"id": "C127", "title": "LVS does not short a MIM capacitor", "statement": "With the LVS script that is shipped for a technology, a via on the upper plate of a metal-insulator-metal (MIM) capacitor joins the plate with the metal above it and not with the lower plate: if all vias between the two metals of the capacitor are on upper plates, the lower and the upper plate are different nets.", "quantifier": "all layouts, both shipped technologies, all kinds of MIM capacitors", "why_tests_cant": "a chain through any layers of the script could join the plates; a test has a few capacitors", "anchors": [["pdk/sky130A/libs.tech/kpex/sky130.lvs", "capm, via3_cap, met3_cap, connect"], ["pdk/ihp_sg13g2/libs.tech/kpex/rule_decks/cap_derivations.lvs", "mim_top, mim_via, topvia1_n_cap"], ["pdk/ihp_sg13g2/libs.tech/kpex/sg13g2.lvs", "connect"]]}
{"id": "C128", "title": "Every drawn wire and via reaches the extraction once", "statement": "The layers of the LVS result that KPEX extracts for a metal, poly, MIM plate or via have a shape exactly where the layer is drawn and no marker of a device or slit takes the shape away, and at each place only one of these layers has a shape, so that nothing is lost and nothing counts twice.", "quantifier": "all layouts, all places, both shipped technologies, all conductors and vias above the silicon", "why_tests_cant": "it depends on all combinations of drawn shapes and markers at a place; a test has some layouts", "anchors": [["pdk/sky130A/libs.tech/kpex/sky130.lvs", "derivations, name"], ["pdk/ihp_sg13g2/libs.tech/kpex/sg13g2.lvs", "derivations, name"], ["cxx/gen_tech_pb/pdk/sky130A.cpp", "buildLVSComputedLayers"], ["cxx/gen_tech_pb/pdk/ihp_sg13g2.cpp", "buildLVSComputedLayers"]]}
{"id": "C129", "title": "Every drawn contact reaches the extraction once", "statement": "Each contact between silicon or poly and the first wiring layer that LVS takes as a connection is in exactly one layer of the LVS result that KPEX extracts for contacts.", "quantifier": "all layouts, all places, both shipped technologies", "why_tests_cant": "it depends on all combinations of drawn shapes and markers at a place; a test has some layouts", "anchors": [["pdk/sky130A/libs.tech/kpex/sky130.lvs", "licon_poly_con, licon_nsd_con, licon_psd_con, licon_vpp"], ["pdk/ihp_sg13g2/libs.tech/kpex/sg13g2.lvs", "cont_poly_con, cont_nsd_con, cont_psd_con"], ["cxx/gen_tech_pb/pdk/sky130A.cpp", "buildLVSComputedLayers"], ["cxx/gen_tech_pb/pdk/ihp_sg13g2.cpp", "buildLVSComputedLayers"]]}
{"id": "C130", "title": "LVS as KPEX starts it keeps all devices and nets", "statement": "With the options that KPEX gives to the LVS script, neither shipped script simplifies, combines or purges the netlist of the layout or of the schematic. The circuits are aligned, the pins of the top level are made, and the netlists are compared. The devices and nets that KPEX extracts parasitics for are those of the layout.", "quantifier": "all layouts, schematics, paths and levels of verbosity, both shipped technologies", "why_tests_cant": "each option has to reach the script under the name that the script reads, whatever the other arguments are", "anchors": [["klayout_pex/klayout/lvs_runner.py", "LVSRunner.run_klayout_lvs"], ["pdk/sky130A/libs.tech/kpex/sky130.lvs", "options, netlist.simplify"], ["pdk/ihp_sg13g2/libs.tech/kpex/sg13g2.lvs", "bool_check?, options, netlist.simplify"]]}
{"id": "C131", "title": "Schematics of sg13g2 are read without losing a connection", "statement": "A schematic whose elements have as many nets as their model has pins is read without an exception. Each element becomes a device of its model whose terminals are connected with the nets of the element, in the order of the pins of the model, and no terminal stays open.", "quantifier": "all schematics, all models, all names", "why_tests_cant": "elements share device classes by model name, so each element depends on those before it; a test has some schematics", "anchors": [["pdk/ihp_sg13g2/libs.tech/kpex/rule_decks/custom_reader.lvs", "CustomReader.element, create_device_class, terminal_list_for_element"], ["pdk/ihp_sg13g2/libs.tech/kpex/rule_decks/custom_devices.lvs", "device classes"]]}
{"id": "C132", "title": "Schematics of sg13g2 are read in the units of the layout", "statement": "The sizes in a schematic are in metres. The devices that are read have exactly the parameters of their kind, with lengths in micrometres, areas in square micrometres and numbers unchanged. An area or perimeter that is not stated is that of the rectangle, and a multiplier that is not stated is one.", "quantifier": "all schematics, all models, all values", "why_tests_cant": "wrong units of one parameter of one device show only for schematics with this device and this way to state its size", "anchors": [["pdk/ihp_sg13g2/libs.tech/kpex/rule_decks/custom_reader.lvs", "map_params"]]}
{"id": "C133", "title": "The netlist file of LVS of sg13g2 can be read as a schematic", "statement": "Each device of the layout is written as an element with the letter of its kind, its nets in the order of the pins of its model and its sizes in the unit that schematics use.", "quantifier": "all devices that are extracted, all names, nets and sizes", "why_tests_cant": "there are some forty classes of devices, most of which a layout of a test does not have", "anchors": [["pdk/ihp_sg13g2/libs.tech/kpex/rule_decks/custom_writer.lvs", "CustomWriter.write_device"], ["pdk/ihp_sg13g2/libs.tech/kpex/rule_decks/globals.lvs", "PREFIX_MAP"], ["pdk/ihp_sg13g2/libs.tech/kpex/rule_decks/custom_reader.lvs", "terminal_list_for_element"]]}
{"id": "C134", "title": "Combining devices in LVS of sg13g2 keeps the circuit", "statement": "When LVS combines two MIM capacitors, two diodes or two bipolar transistors of equal sizes, the circuit draws the same currents from all nets as before, for every behaviour of these devices. Two parallel resistors of equal sizes are replaced by one with the sum of the conductances, two in series by one with the sum of the resistances. Devices that are not combined stay connected as they are.", "quantifier": "all pairs of devices, nets, sizes and multiplicities, all settings of the options", "why_tests_cant": "the combiners change the devices while they decide, so it takes particular pairs of nets and sizes to see a wrong connection", "anchors": [["pdk/ihp_sg13g2/libs.tech/kpex/rule_decks/custom_combiner.lvs", "MIMCAPNDeviceCombiner, DiodeDeviceCombiner, BJTDeviceCombiner, RESDeviceCombiner, supp_series"]]}
{"id": "C135", "title": "LVS recognises a transistor by what is drawn", "statement": "LVS sees the gate of a transistor of a model at a place exactly if the gate, diffusion, implant, well, oxide and threshold layers of this model are drawn there and the layers that exclude it are not. In sky130A a gate that touches a poly_model or VPP marker, and a SONOS gate outside of a core, may be dropped; in sg13g2 the marker of a radio frequency transistor decides between two models. No place belongs to transistors of two models.", "quantifier": "all layouts, all places, all eighteen transistor models", "why_tests_cant": "each layer distinguishes some models; a test has only some combinations of layers", "anchors": [["pdk/sky130A/libs.tech/kpex/sky130.lvs", "tgate, ngate, pgate, extract_devices(mos4)"], ["pdk/ihp_sg13g2/libs.tech/kpex/rule_decks/mos_derivations.lvs", "ngate, pgate"], ["pdk/ihp_sg13g2/libs.tech/kpex/rule_decks/mos_extraction.lvs", "extract_devices"]]}
{"id": "C136", "title": "LVS puts the terminals of devices on the right side", "statement": "Source and drain of a transistor lie on the diffusion of its channel type, in or outside of the n well as this type asks, and beside all gates; its gate is on gate poly outside of resistors, and the bulk of a p channel transistor is the n well. The anode of a diode lies on the p side and its cathode on the n side. Each terminal of each device is on a layer that wires can reach.", "quantifier": "all layouts, all places, all devices of both scripts", "why_tests_cant": "there are about 150 device statements with some 500 layers; two exchanged layers of one device show only in a layout with this device", "anchors": [["pdk/sky130A/libs.tech/kpex/sky130.lvs", "extract_devices, connect"], ["pdk/ihp_sg13g2/libs.tech/kpex/rule_decks/mos_extraction.lvs", "extract_devices"], ["pdk/ihp_sg13g2/libs.tech/kpex/rule_decks/diode_extraction.lvs", "extract_devices"]]}
{"id": "C137", "title": "The lines of a schematic for sg13g2 keep their words", "statement": "The cleaning of element lines before they are parsed keeps the names of the nets, the model and the parameters of each element, so different nets stay different and each element keeps its model.", "quantifier": "all element lines, all names, numbers of nets and parameters", "why_tests_cant": "names with special characters and elements with more nets than usual are rare; each name is changed on its own, so the merging of two nets needs a particular pair", "anchors": [["pdk/ihp_sg13g2/libs.tech/kpex/rule_decks/custom_reader.lvs", "CustomReader.parse_element, clean_sch"]]}
{"id": "C138", "title": "The netlist of LVS of sky130A says what was extracted", "statement": "The line of every extracted device is a SPICE element of its kind, with the model, the nets in the order of the pins, and the parameters of the device. A capacitor between metal fingers that is written and read again has the same nets at the same terminals, and a schematic in which a net of such a capacitor is missing is not accepted silently.", "quantifier": "all devices of the LVS script, all nets, names and parameter values, all schematic elements", "why_tests_cant": "the letter depends on parts of the name of the model, for about a hundred models; the sample layouts contain few of them", "anchors": [["pdk/sky130A/libs.tech/kpex/sky130.lvs", "SubcircuitModels.write_device, SubcircuitModelsReader.element, extract_devices"]]}
{"id": "C139", "title": "LVS finds each marked resistor and capacitor, with its ends beside it", "statement": "A resistor is extracted where its wire and its marker are both drawn, and of the kind that the implants and masks drawn there ask for; its two ends are on the same wire, outside of the marker. Every marked piece of wire, which is cut out of its net, becomes a resistor. A MIM capacitor has its plates where the capacitor layer and the wire below are drawn.", "quantifier": "all layouts, all places, all resistors and MIM capacitors of both scripts", "why_tests_cant": "some 40 device statements with their own markers and exclusions; a marker that cuts a wire without giving a device shows only in a layout with this combination", "anchors": [["pdk/sky130A/libs.tech/kpex/sky130.lvs", "extract_devices(resistor…), extract_devices(capacitor…), FUSE"], ["pdk/ihp_sg13g2/libs.tech/kpex/rule_decks/res_extraction.lvs", "extract_devices"], ["pdk/ihp_sg13g2/libs.tech/kpex/rule_decks/cap_extraction.lvs", "extract_devices"], ["klayout_pex/klayout/lvs_runner.py", "LVSRunner.run_klayout_lvs"]]}
{"id": "C140", "title": "LVS of sg13g2 measures what is drawn", "statement": "The width and length of a poly resistor are those of its body between the ports, with no bend reported for a straight one. The sides, the area and the circumference of a MIM capacitor are those of its drawn shape. The width and length of a varactor are those of its gate. The diameter of an inductor is the inner diameter of its winding.", "quantifier": "all sizes and positions, resistors in both directions, all polygons", "why_tests_cant": "the measurements pick edges by coincidence and by touching; a shape a little different from the tested one, such as a marker wider than the poly, changes which edges are picked", "anchors": [["pdk/ihp_sg13g2/libs.tech/kpex/rule_decks/custom_extractor.lvs", "GeneralNTerminalExtractor.calc_res_params, calc_varicap_params, calc_ind_params"], ["pdk/ihp_sg13g2/libs.tech/kpex/rule_decks/custom_mim_extractor.lvs", "MIMCAPExtractor.calc_cmim_params, set_device_parameters"]]}
{"id": "C141", "title": "LVS of sg13g2 extracts every poly resistor with its own ports", "statement": "For each marker of a poly resistor there is one device, whose terminals are the pieces of poly at its ends: each piece is one terminal, with its own shape, in the order of their corners.", "quantifier": "all numbers of terminals, all ports and markers, all clusters of touching shapes", "why_tests_cant": "which shapes are in one cluster depends on the neighbours of a resistor; a test of one resistor does not show what two of them in series do", "anchors": [["pdk/ihp_sg13g2/libs.tech/kpex/rule_decks/custom_extractor.lvs", "GeneralNTerminalExtractor.get_connectivity, extract_devices, define_and_sort_terminals, sort_polygons"]]}
{"id": "C142", "title": "LVS of sg13g2 extracts every MIM capacitor between its own plates", "statement": "Each drawn MIM capacitor gives one device, whose terminals are its upper plate and its lower plate.", "quantifier": "all numbers, sizes and positions of rectangular capacitors", "why_tests_cant": "capacitors affect each other through their enlarged lower plates; a layout with one capacitor, or with several far away from each other, does not show it", "anchors": [["pdk/ihp_sg13g2/libs.tech/kpex/rule_decks/custom_mim_extractor.lvs", "MIMCAPExtractor.get_connectivity, extract_devices, define_terminals"], ["pdk/ihp_sg13g2/libs.tech/kpex/rule_decks/cap_derivations.lvs", "mim_btm, cmim_btm, cmim_dev"]]}
{"id": "C143", "title": "LVS of sg13g2 recognises labels in any letter case", "statement": "The label of a well, substrate contact, RF transistor, ESD device or inductor is recognised exactly if it fits to the pattern of the script, with letters in any case and no other difference; * stands for any text and ? for any character.", "quantifier": "all patterns of printable characters, all labels", "why_tests_cant": "every combination of letter cases and every other label matters", "anchors": [["pdk/ihp_sg13g2/libs.tech/kpex/rule_decks/custom_classes.lvs", "glob_to_case_insensitive_glob"]]}
{"id": "C144", "title": "LVS of sky130A gives each precision poly resistor the model of its width", "statement": "A poly resistor with 319.8 or 2000 ohms per square is extracted as one device, whose model is the one for its width.", "quantifier": "all widths, lengths and positions of straight resistors; which models a resistor gets, for all outlines with horizontal and vertical edges", "why_tests_cant": "whether length and width are confused shows only for particular lengths", "anchors": [["pdk/sky130A/libs.tech/kpex/sky130.lvs", "poly_high_0p35 … poly_high_5p73, poly_xhigh_0p35 … poly_xhigh_5p73"]]}
{"id": "C145", "title": "LVS of sg13g2 extracts an inductor exactly if it is marked and has its pins", "statement": "A winding in a marker with the text inductor2 gives one device exactly if it has one pin LA and one pin LB and no pin LC, one with the text inductor3 exactly if it has one pin LA, one LB and one LC on their metals. The terminals are LA, LB and LC in this order.", "quantifier": "all numbers, labels and positions of the pins, all texts in the marker", "why_tests_cant": "labels and positions can be combined in any way; a test shows some of them", "anchors": [["pdk/ihp_sg13g2/libs.tech/kpex/rule_decks/ind_derivations.lvs", "ind2_ports, ind2_core, ind2_mk, ind3_ports, ind3_core, ind3_mk"], ["pdk/ihp_sg13g2/libs.tech/kpex/rule_decks/custom_extractor.lvs", "GeneralNTerminalExtractor.extract_devices, define_and_sort_terminals"]]}
{"id": "C146", "title": "LVS gives each bipolar transistor the model of its emitter size", "statement": "A rectangular emitter gets a model exactly if its sides are those of the model: for sg13g2 a fixed width and a length in the range that the script announces, both ends included, for sky130A the nominal sides up to the tolerance. No emitter gets two models of sky130A.", "quantifier": "all widths and lengths of emitters, in both directions", "why_tests_cant": "the selections combine sides and areas with limits of their own; whether they agree matters at every size, and most at the ends of the ranges", "anchors": [["pdk/ihp_sg13g2/libs.tech/kpex/rule_decks/bjt_derivations.lvs", "npn13G2_e_pin, npn13G2l_e_pin, npn13G2v_e_pin"], ["pdk/sky130A/libs.tech/kpex/sky130.lvs", "npn_5v0_1x1_e, npn_5v0_1x2_e, pnp_5v0_0p68x0p68_e, pnp_5v0_3p4x3p4_e"]]}
{"id": "C147", "title": "LVS gives a capacitor between fingers at most one model", "statement": "With the script of sky130A, a rectangular marker of a capacitor between fingers gets at most one of the 54 models, by its sides and by the layers and holes that it touches, unless it is in two of the selections that look at one side only or met5 both covers it and touches it. Each of the models is given alone to markers of the sizes and layers that it is made for, and markers of other sizes get none.", "quantifier": "all sizes of rectangular markers, all combinations of layers, all pairs of models", "why_tests_cant": "there are 1431 pairs of selections, and sizes and layers for each of them", "anchors": [["pdk/sky130A/libs.tech/kpex/sky130.lvs", "vpp.edges.with_length, vpp_*, VPP3Extractor, VPP4Extractor, VPP3NHVExtractor"]]}
{"id": "C148", "title": "A capacitor between fingers is connected to its two combs", "statement": "With the script of sky130A, a marker of a capacitor between fingers with two combs on met2 gives one device between the nets of these combs, with the shield as third terminal if the model has one, whatever else of met2 is in the marker. With less than two pieces there is no device.", "quantifier": "all lists of polygons of the conductors in a marker", "why_tests_cant": "the number, places and order of the polygons in a marker are not bounded", "anchors": [["pdk/sky130A/libs.tech/kpex/sky130.lvs", "VPP3Extractor, VPP4Extractor, VPP3NHVExtractor"]]}
{"id": "C149", "title": "LVS extracts each bipolar transistor of 11 V once", "statement": "With the script of sky130A, each bipolar transistor of 11 V, an emitter in a base in a collector, is one device between the nets of its own collector, base and emitter, whatever other transistors there are, and there are no further devices.", "quantifier": "all numbers and places of transistors", "why_tests_cant": "each collector is combined with the bases and emitters in its bounding box, whose number is not bounded", "anchors": [["pdk/sky130A/libs.tech/kpex/sky130.lvs", "FixBJT4Transistor, npn_11v0_1x1_c, npn_11v0_1x1_b, npn_11v0_1x1_e"]]}
{"id": "C150", "title": "A bipolar transistor gets its own base and collector", "statement": "With the script of sky130A, the bases and collectors that are taken for a model of bipolar transistors are those of the transistors whose emitters have the model, whatever transistors of other models are on the chip.", "quantifier": "all numbers and places of transistors, all selections of emitters", "why_tests_cant": "which shapes are selected depends on the bounding boxes of all bases and collectors of the chip", "anchors": [["pdk/sky130A/libs.tech/kpex/sky130.lvs", "npn_5v0_1x1_b, npn_5v0_1x1_c, npn_11v0_1x1_b, npn_11v0_1x1_c, pnp_5v0_0p68x0p68_b, pnp_5v0_0p68x0p68_c"], ["pdk/ihp_sg13g2/libs.tech/kpex/rule_decks/bjt_derivations.lvs", "pnp_mpa_b, pnp_mpa_c"]]}
{"id": "C151", "title": "An ESD diode is selected by the number of its emitters", "statement": "With the script of sg13g2, the bases and collectors of the ESD diodes of 2 kV are those of the diodes with one emitter, and those of 4 kV of the diodes with two, for each of the four kinds and whatever other diodes are on the chip. No diode is selected for both.", "quantifier": "all numbers and places of diodes, all numbers of emitters", "why_tests_cant": "which shapes are selected depends on the bounding boxes of all bases and collectors of the chip", "anchors": [["pdk/ihp_sg13g2/libs.tech/kpex/rule_decks/esd_derivations.lvs", "diodevdd_2kv_b, diodevdd_2kv_c, diodevdd_4kv_b, diodevdd_4kv_c"]]}
{"id": "C152", "title": "An ESD clamp is one device of the model of its label", "statement": "With the script of sg13g2, a marker with the label nmoscl_2 or nmoscl_4, in any letter case, is one device of this model if at least 12 or 24 gates touch it, and no device otherwise.", "quantifier": "all texts in the marker, all numbers of gates and taps", "why_tests_cant": "the texts and the numbers of shapes in a marker are not bounded", "anchors": [["pdk/ihp_sg13g2/libs.tech/kpex/rule_decks/esd_derivations.lvs", "nmoscl_2_n, nmoscl_2_p, nmoscl_4_n, nmoscl_4_p"]]}
{"id": "C153", "title": "A tap with a resistance is the shape that is drawn", "statement": "With the script of sg13g2, the devices ntap1 and ptap1 have the area of the drawn taps outside of the excluded layers, and exactly the contacts on these are joined to them.", "quantifier": "all shapes of taps, excluded layers and contacts", "why_tests_cant": "the shapes of taps, which may be rings around other devices, are not bounded", "anchors": [["pdk/ihp_sg13g2/libs.tech/kpex/rule_decks/tap_derivations.lvs", "ntap1_tie, ptap1_tie"], ["pdk/ihp_sg13g2/libs.tech/kpex/rule_decks/tap_extraction.lvs", "ntap1, ptap1"], ["pdk/ihp_sg13g2/libs.tech/kpex/rule_decks/tap_connections.lvs", "ntap1_tie, ptap1_tie"]]}
