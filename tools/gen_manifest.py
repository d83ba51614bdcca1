#!/usr/bin/env python3
"""Writes MANIFEST.json from the table below. Run after adding theorems."""
import json, os

NS = "Verif."
CLAIMS = [
    ("C01", "proved", ["Summary.summary_conserves_capacitance", "Summary.summary_conserves_capacitance_all_cells",
                       "Summary.summarize_fails_iff"],
     "values are rationals instead of floats"),
    ("C02", "proved", ["Summary.summary_order_independent", "Summary.summary_cell_order_independent",
                       "Summary.summary_exists_in_any_order", "Summary.summary_exists_in_any_cell_order"],
     "exact arithmetic; float addition is not associative"),
    ("C03", "proved", ["Summary.summary_keys_canonical", "Summary.merged_reports_sum"], ""),
    ("C04", "partial", ["RNetlist.parallel_ways_enlarge", "RNetlist.parallel_ways_ex", "Summary.resistance_summary_single_partial", "Summary.resistance_summary_fails",
                        "Summary.resistance_summary_adds"],
     "the code violates the property: parallel elements are added; negation proved by a witness"),
    ("C23", "proved", ["RNet.network_stays_consistent", "RNet.self_loop_breaks"],
     "histories whose operations use known, distinct nodes; adding a conductance from a node to itself breaks the network (witness)"),
    ("C24", "partial", ["RNet.eliminate_node_preserves_behaviour_partial", "RNet.eliminate_node_tiny_error",
                        "RNet.eliminate_node_tiny_fails"],
     "exact when the conductances at the node sum to more than 1e-10; below the code drops the node (bounded error proved, witness of inexactness)"),
    ("C25", "partial", ["RNet.precious_exact", "RNet.eliminate_all_keeps_terminals", "RNet.eliminate_all_preserves_behaviour_partial", "RNet.eliminate_all_exact_partial", "RNet.eliminate_all_error"],
     "termination and kept terminals proved in general; behaviour exact if every conductance is zero or above 1e-10 S times the number of nodes to eliminate (eliminate_all_exact_partial), and for every run without a tiny star; false below (eliminate_node_tiny_fails of C24), but there the terminal currents differ by at most 1e-10 S x number of eliminated nodes x range of the terminal voltages (eliminate_all_error, every network)"),
    ("C26", "proved", ["RNet.conductances_nonneg"], ""),
    ("C27", "proved", ["RNet.parallel_laws", "RNet.serial_laws", "RNet.combining_does_not_alter_operands"], ""),
    ("C28", "partial", ["Skinny.skinny_split_partial", "Skinny.skinny_split_misplaced", "Skinny.skinny_split_fails",
                        "Skinny.not_skinny_unchanged"],
     "the code returns i != 0 instead of i: wrong side is split when the long side is opposite to the second vertex (proved for all such triangles)"),
    ("C50", "proved", ["RNet.connect_nodes_is_short", "RNet.connect_nodes_self_deletes", "RNet.connect_nodes_isolated_noop"],
     "the second node must have a connection (an isolated one stays); connecting a node with itself deletes it"),
    ("C05", "partial", ["Rcx25Netlist.netlist_contains_the_parasitics_partial", "Rcx25Netlist.expand_fails_iff",
                        "Rcx25Netlist.net_names_unique_partial", "Rcx25Netlist.netlist_total_matches_recordings",
                        "Rcx25Netlist.net_names_unique_fails", "Rcx25Netlist.cap_unit_fails"],
     "devices proved exactly; the code violates two parts: fF values are stored as F, and an existing VSUBS net is duplicated (witnesses)"),
    ("C07", "proved", ["Maxwell.netlist_reproduces_maxwell", "Maxwell.coupling_from_upper_triangle", "Maxwell.expand_nets", "Maxwell.cap_devices_exact",
                       "Maxwell.vsubs_is_duplicated", "Maxwell.example_meets_hypotheses"],
     "for symmetric matrices; couplings come from the upper triangle only"),
    ("C08", "proved", ["Maxwell.only_positive_caps", "Maxwell.cap_names_distinct", "Maxwell.unknown_axis_rejected",
                       "Maxwell.same_net_twice_fails"], ""),
    ("C51", "proved", ["Rcx25Netlist.csv_rows_match_netlist"], ""),
    ("C11", "partial", ["SolverLog.fastercap_last_matrix", "SolverLog.fastercap_no_matrix_rejected",
                        "SolverLog.fastercap_truncated", "SolverLog.fastercap_truncated_partial",
                        "SolverLog.fastercap_truncated_fails", "SolverLog.fastercap_cut_row_fails"],
     "complete matrices and logs without a matrix proved; truncated logs: exact behaviour proved (negative index wraps to the start of the file), which violates the last clause (witnesses)"),
    ("C12", "partial", ["SolverLog.fastcap_last_matrix_partial", "SolverLog.fastcap_no_matrix_rejected",
                        "SolverLog.fastcap_unit_ignored", "SolverLog.fastcap_unit_ignored_fails",
                        "SolverLog.fastcap_padded_name_fails"],
     "last matrix proved; the code violates the unit clause: the announced unit is ignored (proved for all units)"),
    ("C06", "proved", ["PexMode.mode_selects", "PexMode.unselected_ignored", "PexMode.selected_failure_reported",
                       "PexMode.unselected_absent", "PexMode.mode_table"], "what the extractors find is a parameter"),
    ("C09", "proved", ["CapMatrix.averaging_correct", "CapMatrix.averaged_symm", "CapMatrix.averaging_idempotent",
                       "CapMatrix.averaging_preserves_sum"], "exact arithmetic"),
    ("C10", "proved", ["CapMatrix.csv_round_trip", "CapMatrix.csv_empty_matrix_rejected", "CapMatrix.csv_separator_in_name_fails"],
     "number format and float() are parameters; at least one name and one row"),
    ("C13", "proved", ["Reduce.reduction_exact", "Reduce.reduction_default", "Reduce.reduction_unknown_top"],
     "combine_devices of KLayout is a parameter"),
    ("C52", "proved", ["Reduce.csv_shows_parasitics", "Reduce.csv_written"], ""),
    ("C53", "partial", ["Pipeline.fastercap_flow_correct", "Pipeline.fastcap_flow_partial"],
     "proved for the FasterCap flow; for FastCap2 up to the unit, which the code ignores (see C12)"),
    ("C14", "proved", ["Sweep.material_occupancy", "Sweep.heights_exact", "Sweep.height_rounding"],
     "Regions are finite sets of cells, heights exact rationals rounded as in the code."),
    ("C15", "proved", ["Sweep.materials_disjoint", "Sweep.no_overlap_error"], ""),
    ("C16", "proved", ["Sweep.interfaces_emitted", "Sweep.contacts_emitted"],
     "Between two touching nets only the bottom of the upper one is emitted (labelled void or with a hidden dielectric)."),
    ("C17", "partial", ["Sweep.no_spurious_partial", "Sweep.no_surface_inside", "Sweep.wrong_label_only_above",
                        "Sweep.no_spurious_fails", "Sweep.no_spurious_fails_stack"],
     "The full statement is false: overlapping dielectrics give extra surfaces. Proved: exactness where different nets and different dielectrics are not drawn over each other; in general, surfaces only lie on interfaces and only the upper label can be wrong."),
    ("C18", "proved", ["Sweep.walls_exact", "Sweep.walls_once"], ""),
    ("C19", "proved", ["Finalize.finalize_ok", "Finalize.finalize_lossless", "Finalize.finalize_one_orientation"],
     "The Delaunay triangulation is a parameter."),
    ("C54", "proved", ["Finalize.reference_point_side", "Finalize.reference_point_reversed", "Finalize.bottom_faces_down",
                       "Finalize.top_faces_up", "Finalize.wall_faces_left", "Finalize.wall_upright"], "Over the reals."),
    ("C20", "proved", ["ListFile.conductors_read", "ListFile.dielectrics_read", "ListFile.write_succeeds"],
     "Files are records; number formatting is not modelled."),
    ("C21", "partial", ["ListFile.names_distinct", "ListFile.names_no_slash_partial", "ListFile.names_short_partial",
                        "ListFile.bytes_ascii", "ListFile.names_fail_slash", "ListFile.names_fail_material", "ListFile.names_fail_bytes"],
     "Distinctness is proved for all names. Validity is false for names with slashes, long dielectric names and multi-byte characters; proved otherwise."),
    ("C22", "partial", ["Stack3d.build_terminates_partial", "Stack3d.build_succeeds", "Stack3d.build_loops"],
     "Proved for stacks in which metals and wrapped dielectrics have a name of their own; with a repeated name the loop need not end (counterexample), and the technology loader does not check names."),
    ("C55", "proved", ["Stack3d.conductors_exact"], ""),
    ("C56", "proved", ["Stack3d.dielectrics_exact"], ""),
    ("C57", "proved", ["Stack3d.no_gaps"], "Assumes that growing a region by a non-negative amount does not remove anything from it."),
    ("C58", "proved", ["Stack3d.materials_last", "Stack3d.materials_exact"], "the second for stacks that give each name one permittivity; the first, without this assumption, says that the last one counts"),
    ("C30", "proved", ["Overlap.covered_once", "Overlap.overlap_exact", "Overlap.areas_add_up", "Overlap.records_sound",
                       "Overlap.extract_exact"],
     "per polygon and for the whole cell; requires specifications for the layer pairs that occur (see C31) and "
     "non-negative (for the sum of areas: positive) technology values"),
    ("C31", "partial", ["Overlap.overlap_exact_below_partial", "Overlap.missing_spec_stops", "Overlap.missing_spec_fails"],
     "false as stated: a foreign shape on an unspecified layer suppresses all records for it and the layers above; layers "
     "below it are exact"),
    ("C42", "partial", ["TechInfo.overlap_lookup", "TechInfo.overlap_lookup_none", "TechInfo.side_table_loads",
                        "TechInfo.side_overlap_lookup_partial", "TechInfo.side_overlap_lookup_fails"],
     "proved for overlaps; for side overlaps the table fails to load exactly if an inside layer has no substrate entry"),
    ("C43", "proved", ["TechInfo.gds_pair_precedence", "TechInfo.single_lookups"], "all lookups by one key included"),
    ("C44", "proved", ["TechInfo.milliohm_exact", "TechInfo.contact_conductance"],
     "the division of the specific resistance by the via area happens inside KLayout"),
    ("C32", "proved", ["Fringe.sidewall_record", "Fringe.sidewall_law", "Fringe.sidewall_pair"], ""),
    ("C33", "proved", ["Fringe.fringe_additive", "Fringe.fringe_nonneg_mono", "Fringe.fringe_full_halo"], ""),
    ("C34", "partial", ["Fringe.fringe_records", "Fringe.fringe_exact", "Fringe.fringe_order_partial", "Fringe.fringe_order_fails", "Fringe.fringe_all_lost"],
     "false as stated: a piece that ends at the edge stops the loop over the remaining polygons (counterexample); proved "
     "for neighbourhoods without such a piece"),
    ("C35", "proved", ["Fringe.nearest_selected", "Fringe.interval_exact"], ""),
    ("C59", "proved", ["Fringe.interval_exact", "Fringe.interval_layers", "Fringe.interval_skipped", "Fringe.fringe_total_bounded",
                       "Fringe.extract_concat"],
     "under the stated contract of KLayout's edge neighbourhoods and for neighbourhoods without the piece of C34"),
    ("C45", "proved", ["Lvs.layers_exact", "Lvs.layers_once", "Lvs.shapes_of_layer_exact", "Lvs.shapes_of_net_exact",
     "Lvs.nets_share_shapes"], "layers with a known name go to the group of their GDS pair, unknown ones with GDS numbers to the unnamed ones"),
    ("C46", "partial", ["Shapes.point_round_trip", "Shapes.polygon_round_trip_partial", "Shapes.region_round_trip_partial",
     "Shapes.box_exact", "Shapes.round_trip_fails"],
     "proved for polygons without holes and nets that are not the empty string; round_trip_fails shows that holes and empty net names are lost"),
    ("C60", "partial", ["Lvs.pins_exact", "Lvs.pins_once_partial", "Lvs.pins_duplicated", "RRequest.pins_ok_iff"],
     "the pins are exact per source layer; a label is reported once if its layer has one source layer, and pins_duplicated shows that it is reported once per source layer otherwise"),
    ("C61", "partial", ["Lvs.devices_exact_partial", "Lvs.unconnected_terminal_fails", "RRequest.devices_ok_iff"],
     "exact whenever the devices can be read; devices_ok_iff says exactly when; unconnected_terminal_fails shows that a terminal without net aborts"),
    ("C29", "partial", ["RRequest.request_exact_partial", "RRequest.extractor_input_exact", "RRequest.request_shapes_duplicated"],
     "pins and terminals are partitioned; the shapes of a net are in its request once per LVS layer with the GDS number (request_shapes_duplicated), but reach the extractor exactly once (extractor_input_exact)"),
    ("C62", "partial", ["RRequest.tech_exact_partial", "RRequest.empty_via_entry", "RRequest.klayout_tech_exact"],
     "exact, including the defect that a via without contact in the process stack leaves an empty entry (empty_via_entry)"),
    ("C63", "proved", ["RRequest.results_exact", "RRequest.results_succeed", "RRequest.results_example"],
     "the output of KLayout's extractor is arbitrary"),
    ("C64", "partial", ["RRequest.pin_ports_declared", "RRequest.request_ports_declared_partial", "RRequest.request_ports_undeclared", "RRequest.terminal_ports_declared_partial", "RRequest.terminal_ports_undeclared"],
     "holds for pins, and for terminals if one LVS layer has the GDS number; otherwise it fails for at least one LVS layer"),
    ("C38", "partial", ["Options.bool_exact_partial", "Options.bool_default", "Options.digits_rejected"],
     "exact for the words in any letter case; digits_rejected shows that the spellings 1 and 0, which the code lists, are rejected"),
    ("C39", "partial", ["Options.contradictory_rejected", "Options.included_exact", "Options.filter_agrees_partial",
     "Options.filter_disagrees", "Options.all_but", "Options.none_but", "Options.upper_case_ignored"],
     "filter and is_included agree for patterns with all or none; filter_disagrees shows that they differ for every other pattern with an inclusion"),
    ("C40", "partial", ["Rdb.path_round_trip_partial", "Rdb.quoted_round_trip_partial", "Rdb.last_empty_lost", "Rdb.other_escape_fails"],
     "proved for all names if the last one is not empty and only dots, quotes and backslashes are escaped; the other two theorems show that it fails otherwise"),
    ("C41", "partial", ["Rdb.repair_complete_partial", "Rdb.repair_keeps", "Rdb.repair_idempotent", "Rdb.repair_minimal",
     "Rdb.repair_succeeds", "Rdb.repair_succeeds_iff", "Rdb.quote_fails"],
     "complete, keeping and idempotent whenever repair succeeds, with the exact condition for success for files in which categories have category lists (as KLayout writes them); quote_fails shows that a quote in a name makes it fail"),
    ("C47", "partial", ["NetJson.json_exact", "NetJson.json_only_drawable", "NetJson.dense_partial", "NetJson.instance_lost"],
     "one number per net name is proved for all circuits; dense if no entry is overwritten; instance_lost shows that of two instances of one circuit only one is written"),
    ("C48", "partial", ["LogFiles.run_keeps_partial", "LogFiles.history_keeps_partial", "LogFiles.run_logged", "LogFiles.log_lost"], "kept for all histories in which each run begins at least a second after the previous one ends; log_lost shows that three runs within a second lose the first log"),
    ("C36", "partial", ["LvsCache.lvsdb_fresh_partial", "LvsCache.lvsdb_found_partial", "LvsCache.uncached_fresh", "LvsCache.ownCache_of_default", "LvsCache.stale_same_name", "LvsCache.stale_setup", "LvsCache.stale_shared_cache", "LvsCache.stale_lvs_failure", "LvsCache.stale_old_mtime", "LvsCache.stale_concurrent_edit", "LvsCache.removed_output_fails"], "proved for all histories under five hypotheses; each stale_* theorem is a history that violates one of them and in which the claim is false"),
    ("C37", "partial", ["CliArgs.accept_iff_partial", "CliArgs.accepted_layout", "CliArgs.accepted_database", "CliArgs.crash_iff", "CliArgs.errors_exact", "CliArgs.empty_gds", "CliArgs.engines_exact"], "acceptance characterised for all arguments but --gds \"\", which is accepted although there is no input (empty_gds)"),
    ("C49", "partial", ["LayerMap.mapping_ok_iff", "LayerMap.target_unique", "LayerMap.converted_exact", "LayerMap.reported_exact", "LayerMap.dummy_separate", "LayerMap.guess_exact", "LayerMap.invert_exact", "LayerMap.convert_exact_partial", "LayerMap.layers_merged", "LayerMap.layer_parsed"], "targets, reports and output content are exact; the last part (no two layers of different meaning on one target) is false for the table in the code (layers_merged)"),
    ("C65", "proved", ["Engine25.layers_ok_iff", "Engine25.layers_exact", "Engine25.IsStack.unique", "Engine25.substrate_covers"],
     "layers_ok_iff states exactly when the layers can be collected; substrate_covers assumes that one of the two bounding boxes contains the other"),
    ("C66", "proved", ["Engine25.netlist_cells", "Engine25.netlist_geometry", "Engine25.netlist_capacitance", "Engine25.views_sum", "Engine25.edge_total", "Engine25.overlap_recorded", "Pdk.shipped_cells", "Pdk.shipped_netlist", "Engine25.exNetlist", "Engine25.exFaithful", "Pdk.geoSpaced", "Pdk.geoVisits"],
     "netlist_geometry: exact down to the visible rectangles, netlist_cells: sums over the cells of the layout, shipped_cells: the same for the shipped technologies without conditions on the technology; given that KLayout merges polygons, reports complete neighbourhoods (Faithful) and visits every edge with intervals that show what lies in front of it (Visits); rounding of reals to floats is a parameter; geoVisits and geoSpaced: a cell with three wires for which all assumptions hold"),
    ("C67", "partial", ["Magic.ext_exact_partial", "Magic.res_exact_partial", "Magic.special_nets_dropped"],
     "exact for lines with the names the expressions accept; nets with other characters are dropped (proved for all such names). Lines of a file contain no newline inside; letters and digits are ASCII"),
    ("C68", "partial", ["Magic.run_exact_partial", "Magic.exDir_clean", "Magic.run_clash", "Magic.run_res_clash"],
     "for cell names without .ext and without .res at the end; witnesses of mixed up cells otherwise"),
    ("C69", "partial", ["Magic.report_exact_partial"],
     "for the same cell names, if 5 nm is a multiple of the database unit; what the parser drops (C67) is missing in the report, rounding of floats is not modelled"),
    ("C70", "partial", ["Magic.script_faithful_partial", "Magic.exArgs_plain", "Magic.script_blank_path"],
     "for arguments without white space and Tcl special characters; witness for a blank in a path"),
    ("C71", "proved", ["Checker.check_ends", "Checker.check_sound", "Checker.check_complete", "Checker.check_iff", "Checker.check_clean", "Checker.check_no_false_alarm", "Checker.grid_exact", "Checker.pillow_checked", "Checker.open_sheet_undetected", "Checker.touching_solids_reported", "Checker.exGen_clean"],
     "for every iteration order of Python's sets; the two examples show that the excluded cases (coinciding sheets, solids touching along a side) really differ"),
    ("C72", "proved", ["Checker.stl_exact", "Checker.dump_exact", "Checker.dump_slash", "Checker.exGen_dumped"],
     "the text of a coordinate is a parameter; dump_slash: a net name with a slash is a FileNotFoundError"),
    ("C73", "partial", ["Wall.wall_manhattan", "Wall.wall_near_partial", "Wall.plane_of_line", "Wall.round_conversion", "Wall.examples", "Wall.wall_diagonal_off", "Wall.wall_diagonal_long"],
     "exact for edges along the axes; other edges are displaced by up to one database unit (wall_diagonal_off), or by more if KLayout makes integers of the unit vector (wall_diagonal_long)"),
    ("C74", "partial", ["Runners.fastercap_started", "Runners.fastcap_started", "Runners.magic_started", "Runners.lvs_started_partial", "Runners.run_logged", "Runners.run_console", "Runners.run_not_found", "Runners.strict_success", "Runners.sameText_unique", "Runners.lvs_failure_ignored", "Runners.console_cut"],
     "holds for FasterCap, FastCap2 and Magic; lvs_failure_ignored: a failed LVS run is no exception; console_cut: the console loses the last character of an unterminated last line"),
    ("C75", "proved", ["Runners.fastercap_started", "Runners.fastcap_started", "Runners.magic_started", "Runners.magic_not_started", "Runners.lvs_started_partial", "Runners.fastercap_command", "Runners.fastcap_command", "Runners.fastcap_words", "Runners.magic_command", "Runners.lvs_command"],
     "numbers are given by their text; without a configuration file Magic is not started (TypeError); lvs_started_partial is partial for C74 only"),
    ("C76", "partial", ["Runners.fastercap_results", "Runners.fastcap_results_partial", "Runners.fastcap_failure", "Runners.fastcap_relative", "Runners.exWorld_absolute", "Runners.exWorld_meets", "Runners.exWorld_relative"],
     "FasterCap completely; FastCap2 for absolute output directories: fastcap_relative shows that every run with a relative one (as the default) fails after the solver"),
    ("C77", "proved", ["Runners.main_exact"],
     "for arbitrary behaviour of the steps"),
    ("C78", "partial", ["Runners.programs_exact_partial", "Runners.pdkpath_without_pdk", "Runners.empty_variable", "Runners.magic_without_rc", "Runners.env_meets"],
     "pdkpath_without_pdk: PDKPATH without PDK makes every call fail"),
    ("C79", "partial", ["Reporter.overlap_shown", "Reporter.sidewall_shown", "Reporter.fringe_shown", "Reporter.entries_differ", "Reporter.results_shown_partial", "Reporter.exText_paths", "Reporter.exShown", "Reporter.dash_shared"],
     "Proved for all sequences of records; the link to the tables of the results holds for overlap only for net names without the dash ' – ', else two pairs of nets share a category (dash_shared)."),
    ("C80", "proved", ["Reporter.result_reported_iff", "Reporter.result_shown", "Reporter.exNetwork_shown"],
     "Exact list of report entries. A node id that occurs twice in a network stands for the last node."),
    ("C81", "partial", ["Reporter.request_reported_iff", "Reporter.request_shown_partial", "Reporter.via_outside_stack", "Reporter.exVia_reported"],
     "The entries are exact when the report can be written; 'never ends the run' is false: it is written exactly if the layers below and above all vias are conductors of the request, and a via layer outside the process stack ends the run (via_outside_stack)."),
    ("C82", "proved", ["Pdk.shipped_builds", "Pdk.shipped_dielectrics", "Pdk.shipped_wraps", "Pdk.shipped_field_oxide"], "the stacks are transcribed from the C++ tables by tools/gen_pdk.py; decimals are exact"),
    ("C83", "proved", ["Pdk.shipped_no_gaps"], "assumes that growing a region by a non-negative amount does not remove anything from it"),
    ("C84", "proved", ["Pdk.shipped_vias_connect", "Pdk.shipped_vias_end"], ""),
    ("C85", "partial", ["Pdk.wrapped_height_partial", "Pdk.topox_too_low", "Pdk.pass2_too_high"],
     "false as stated: a sidewall dielectric with a height above the metal does not count the metal, a second conformal dielectric counts it twice; one layer of each shipped technology is affected"),
    ("C86", "partial", ["Pdk.shipped_layout_partial", "Pdk.shipped_runs_halo_partial", "Pdk.shipped_runs_partial", "Pdk.spaced_of_layout", "Pdk.mim_fails", "Pdk.too_close_fails", "Fringe.extract_succeeds", "Fringe.extract_fails", "Fringe.extract_fails_sidewall"],
     "proved for cells without MIM capacitors whose nets are more than 0.057 µm apart (capacitances and netlist; with resistors up to the result of the extraction); false otherwise, with proofs for the MIM plates of both technologies and for 0.057 µm on Metal1 of ihp_sg13g2; conditions for an arbitrary technology"),
    ("C87", "partial", ["Pdk.shipped_layout_partial", "Pdk.shipped_nonneg_partial", "Fringe.extract_positive", "Pdk.metal1_negative"],
     "proved for nets more than 0.057 µm apart; false for Metal1 of ihp_sg13g2 below that distance, because the negative offset is added to the distance"),
    ("C88", "partial", ["Pdk.sg_resistors_partial", "Pdk.shipped_resistors_iff", "Pdk.sky_pins_fail", "RRequest.tech_ok_iff", "Pdk.shipped_request_partial", "Pdk.blackbox_fails", "Pdk.mim_blackbox_fails", "RRequest.request_ok_iff"],
     "the technology part is proved for ihp_sg13g2 (sg_resistors_partial); for sky130A false as soon as there is a pin shape on met1 to met5, because the names of these pin layers are also given to label layers (sky_pins_fail); shipped_resistors_iff is the exact condition, tech_ok_iff that for an arbitrary technology; the whole request is proved for both technologies under natural conditions on the LVS database (shipped_request_partial), request_ok_iff is the exact condition, and with blackboxed devices it is false for every device whose terminals are on a device layer, such as the MIM capacitors (blackbox_fails, mim_blackbox_fails)"),
    ("C89", "partial", ["Pdk.shipped_vias_joined_partial", "Pdk.shipped_resistors_exact", "Pdk.sky_via1_missing", "Pdk.sky_mim_via", "Pdk.sg_mim_report_fails", "Pdk.exSky_resistors"],
     "the exact lists of conductors and vias are proved for both technologies; every contact and via of the stack joins its layers except via1_con of sky130A, which is missing, and the vias on its MIM plates, which are said to start on the lower plate; in ihp_sg13g2 the upper MIM plate is no conductor, so a via on it ends the run with a KeyError in the report"),
    ("C90", "partial", ["Engine25.faces_freely_partial", "Engine25.wall_free_partial", "Engine25.own_polygon_ignored"],
     "proved for layouts where no polygon lies in front of its own edges; false otherwise: an edge that faces another arm of its own polygon is coupled to what lies behind this arm (own_polygon_ignored)"),
    ("C91", "proved", ["Engine25.parallel_wires", "Engine25.parallel_wires_total"], "wallTotal is the sidewall part of the netlist by netlist_geometry (C66)"),
    ("C92", "proved", ["Engine25.moved_netlist", "Engine25.moved_exact", "Pdk.shipped_moved"], "for a KLayout that merges the moved shapes as the moved merged shapes; exact if it reports the edges of the moved layers as it reports those of the layers, else up to rounding (each contribution of the fringe by the factor of the rounding, or below the threshold 0.0001)"),
    ("C93", "proved", ["Engine25.local_netlist", "Pdk.shipped_local"], "for a KLayout that merges net by net; near means within side_halo in both directions plus one database unit"),
    ("C94", "partial", ["Pdk.shipped_pins_partial", "Pdk.sky_no_pins"], "exact for ihp_sg13g2 and for poly and li1 of sky130A, given that the pins can be read at all (C60); met1 to met5 of sky130A never have pins (sky_no_pins), because the names of their pin layers are given again to the label layers"),
    ("C95", "partial", ["LayerMap.shipped_converts", "LayerMap.sky_converted", "LayerMap.sg_converted_partial", "LayerMap.sg_taken_for_sky", "LayerMap.sky_back_partial", "LayerMap.sg_back_partial", "LayerMap.sky_single", "LayerMap.sg_single", "LayerMap.li1_merged", "LayerMap.sky_lost"], "no layout is refused; sky130A layouts are recognised and mapped exactly; sg13g2 layouts only if one layer has numbers that sky130A does not have (sg_taken_for_sky: Metal3, Via3 and Metal4 alone are taken for sky130A); there and back every shape returns to its layer if the result is recognised (sky_lost: met2, via2 and met3 alone are lost), and on layers with a single target nothing is added (li1_merged: pins come back as labels as well)"),
    ("C96", "proved", ["Engine25.plate_netlist", "Pdk.shipped_plate"], "bounding boxes of the cell equal to the plate; up to the rounding of each contribution (10⁻⁴ aF) and of the arctangents (ε); the substrate reaches side_halo beyond the bounding box, so the part of the fringe field beyond it is not counted"),
    ("C97", "proved", ["Engine25.renamed_netlist", "Pdk.shipped_renamed"], "for a KLayout that merges shapes per net whatever the names; shapes without net and the substrate keep their names"),
    ("C98", "partial", ["Runners.svg_draws_partial", "Runners.svg_not_one", "Runners.svg_cell_fails", "Runners.svg_cell_ignored", "Runners.svg_not_found", "Runners.svg_no_document"],
     "Proved for every netlist, world and program: with one top circuit the tool is started with the written document of this circuit and the output path asked for, its output is logged and a non-zero exit code is an exception; otherwise nothing is written and the status says so. Missing because the code does not have it: the cell given with --cell is ignored (svg_cell_fails, svg_cell_ignored), so a netlist with two top circuits cannot be drawn."),
    ("C99", "proved", ["Engine25.redrawn_run"],
     "For every technology, layout, mode and outcome of the resistance extraction: if on every layer every net covers the same area, the results of the two runs are equal, errors included. The assumption on KLayout is that merging a region depends only on the covered area (MergesArea); the resistance networks come from KLayout's extractor and are the same input on both sides."),
    ("C100", "partial", ["Logging.messages_exact_partial", "Logging.louder_shows_more", "Logging.all_shows_warnings", "Logging.unreadable_ends_run", "Logging.argument_raises", "Logging.listed_accepted", "Logging.netlist_level_rejected"],
     "Proved for every level but all and every sequence of messages that Rich can show. False otherwise: the level all has the number 0, which Python reads as 'level of the parent', so only warnings and errors are shown (all_shows_warnings); a message that is no valid markup, such as one with the file name a[/b].gds, ends the run (unreadable_ends_run, an equivalence); the message about a --diel filter that cannot be parsed raises a TypeError (argument_raises); the netlist tool accepts no log level at all (netlist_level_rejected)."),
    ("C101", "partial", ["Runners.magic_run_partial", "Runners.modes_apart", "Runners.magic_no_layout", "Runners.magic_no_config", "Runners.magic_stale", "Runners.magic_stale_ex"], "The flow of the Magic engine from the script to the report and the netlist; the program is a parameter. Not true in full: the directory of the run is not emptied, so a Magic that writes nothing at all leaves a successful run with the netlist and extraction files of an earlier one (magic_stale, magic_stale_ex); and without a layout (LVSDB input) nothing is done and the run still succeeds (magic_no_layout)."),
    ("C102", "partial", ["Runners.convert_command_partial", "Runners.convert_refused", "Runners.convert_lists", "Runners.convert_writes_only", "Runners.convert_listed_level", "Runners.convert_no_output"], "The command line tool around the conversion of layouts, with the two layer files of the repository. Not true in full: setup_logging is called before the level is validated, with the text of the argument, so every name that --help lists ends with a ValueError (convert_listed_level); the directory of the output is not checked, but that of the input twice (convert_no_output). argparse is not modelled."),
    ("C103", "proved", ["Engine25.crossing_netlist", "Pdk.shipped_crossing"],
     "two rectangles on different layers that cross, nothing else; up to the rounding of each contribution (10⁻⁴ fF) and of the arctangents (ε)"),
    ("C104", "proved", ["Runners.rcx25_results", "Runners.table_reads_back", "Runners.rcx25_fails", "Runners.rcx25_half",
                        "Runners.lines_unique", "Runners.fields_unique", "Runners.semicolon_ambiguous"],
     "names of nets without semicolons and line ends for reading the table back: they are not quoted (semicolon_ambiguous)"),
    ("C105", "proved", ["Runners.engines_together", "Runners.together_relative"], "all combinations; together_relative shows why the absolute path is needed: with a relative one the run ends with an exception after FastCap2, and the 2.5D engine is not started."),
    ("C106", "proved", ["Runners.input_fresh", "Runners.stl_stale"], "Finding: STL files of nets and materials of earlier runs that this run does not have stay in the directory Geometries."),
    ("C107", "proved", ["Runners.layers_dumped"], "Finding: a layout of unknown layers from an earlier run stays when this run has no unknown layers."),
    ("C108", "proved", ["Runners.whole_run"], "Composition of C105, C106 and C107. Magic, which comes first, is left out."),
    ("C109", "partial", ["Runners.analyzer_report_partial", "Runners.analyzer_no_directory", "Runners.analyzer_default_fails"], "Proved with --out. Without it every call fails: the default path is computed but not stored (analyzer_default_fails), so report.save gets None. Contents for the cell names of C68."),
    ("C110", "proved", ["RNet.print_exact", "RNet.names_kept", "RNet.names_ex", "RNet.find_exact"], "For the histories of legal calls of C23; texts of numbers, points and identifiers are parameters."),
    ("C111", "proved", ["Engine25.extract_refines", "Engine25.shown_placed", "Engine25.report_places", "Engine25.bent_shown"],
     "Figures are edges by their ends and polygons by the cells they cover. What KLayout reports in front of an edge is assumed to be what lies there (EdgeOK), and its decomposition of a region to be exact (KernelOK, KernelBands), as for C66. extract_refines: the extraction with its report has the same records and exceptions as the one of C59 and C66. shown_placed: every act of the run, debug output included, is at its place. report_places: the entries below a category are those of the results, with these shapes. bent_shown: a concrete layout that meets the hypotheses."),
    ("C112", "proved", ["Engine25.overlaps_refine", "Engine25.overlaps_placed", "Engine25.report_overlaps", "Engine25.cover_shown"],
     "Polygons of one layer are assumed disjoint (no shorts, merged regions) and the neighbourhoods of KLayout are assumed to list the polygons that share area with the visited one; the polygons that KLayout hands out for a region are a parameter that must cover the region. Nets with an en dash in their name are excluded (see C79)."),
    ("C113", "proved", ["RNet.eliminate_all_rounded"], "overflow and underflow are left out"),
    ("C114", "partial", ["LayerNames.script_exact_partial", "LayerNames.match_exact", "LayerNames.Words.unique"], "exact for the code of main; but the file imports from a package kpex that the repository does not have, so the tool does not start; letters and digits are ASCII"),
    ("C115", "proved", ["Summary.summary_rounded", "Summary.summary_rounded_order", "Summary.summary_rounded_exists", "Summary.sums_loop", "Summary.sums_once"], "every += is followed by a rounding with a bounded relative error (no overflow or underflow); of the built-in sum only an error bound is assumed, which adding one number after the other satisfies (sums_loop)"),
    ("C116", "proved", ["Rounding.overlap_rounded", "Rounding.sidewall_rounded", "Rounding.fringe_rounded", "Rounding.summary_total_rounded", "Rounding.overlap_summary_rounded", "Rounding.double_precision", "Rounding.overlap_example", "Rounding.fringe_example"], "every float operation (also math.atan, math.pi and the literals) is followed by a rounding with a bounded relative error (no overflow or underflow); a fringe within the error of the threshold 0.0001 fF may be recorded in one computation only"),
    ("C117", "partial", ["Rcx25Netlist.csv_rows_sorted", "Rcx25Netlist.output_order_free_partial", "Rcx25Netlist.case_order"], "the order of the rows is proved in general; equal files for equal recordings if no two reported pairs of nets differ only in case; case_order is a run in which they do and the order of the recordings shows. Exact values (rounding: C115); str.casefold is a parameter"),
    ("C118", "partial", ["TechInfo.layers_by_name_partial", "TechInfo.contact_of_device", "TechInfo.broken_lookups"],
     "three look-ups raise: by GDS pair for every stack with a layer, of the contact above a metal for every stack with "
     "a metal, and the pin layer mapping always (its field is not part of the technology message, not modelled)"),
    ("C119", "proved", ["RNet.node_identity", "RNet.request_effect", "RNet.nodes_found"],
     "whether a point lies on an edge is decided by KLayout and arbitrary here"),
    ("C120", "partial", ["Engine25.counted_once_partial", "Engine25.stack_not_shielded", "Engine25.stack_counted_twice", "Engine25.stNetlist"],
     "false of the code where the lower net has several layers above each other: a layer of the same net does not shield those below it, so they count again (stack_not_shielded gives exactly when, stack_counted_twice the effect on the netlist, stNetlist a concrete layout); proved is that this is the only way in which a place counts twice"),
    ("C121", "partial", ["Engine25.larger_halo_partial", "Pdk.shipped_larger_halo_partial", "Engine25.scaled_halo_shrinks"],
     "proved for the option --scale false, up to rounding; false for the default, which scales the fringe capacitance to the halo: with two crossing wires that end within the halo a larger halo makes the capacitance smaller"),
    ("C122", "partial", ["RNetlist.resistor_iff_element", "RNetlist.nets_stay_apart_partial", "RNetlist.ports_of_a_net_merged", "RNetlist.resistance_between_ports_lost", "RNetlist.inner_names_join_nets", "RNetlist.resistor_values", "RNetlist.parallel_ways_enlarge", "RNetlist.parallel_ways_ex"],
     "resistors are exactly those of the networks, with the sum of the resistances of all elements between two nodes (parallel ways are added, see C04); nets stay apart if inner nodes of different nets have different names that are no net names (KLayout's names are not modelled; a witness shows that the netlist joins two nets otherwise); the code violates the last part: all ports of a net are merged into the net (proved in general, with a witness)"),
    ("C123", "partial", ["LvsRules.vias_join_partial", "LvsRules.vias_join_layers_partial", "LvsRules.vias_apart", "LvsRules.layers_named", "LvsRules.vias_join_ex"],
     "proved except at the listed gaps, which are places where the scripts do not join them (each with a layout in which they are apart): sky130A contacts on gate poly outside npc and inside VPP capacitors, via 2 under a MIM capacitor; sg13g2 vias on Metal5 inside a slit or resistor marker"),
    ("C124", "partial", ["LvsRules.conductor_whole_partial", "LvsRules.pins_join_partial", "LvsRules.texts_join_partial", "LvsRules.conductors_apart", "LvsRules.text_lost", "LvsRules.conductor_ex", "LvsRules.texts_ex"],
     "proved except at the listed seams, where the scripts cut the conductor (each with a layout): sky130A VPP and MIM capacitors, sg13g2 Metal5 inside a marker; pins on the MIM plates of sky130A and texts on gate poly and local interconnect of its VPP capacitors are not connected, texts on Metal5 of sg13g2 not inside a marker"),
    ("C125", "partial", ["LvsRules.resistor_separates_partial", "LvsRules.metal5_resistor_shorts", "LvsRules.resistor_ex"],
     "proved for gate poly and all metals of sky130A and all metals of sg13g2 but Metal5, for which the script shorts every resistor (metal5_resistor_shorts)"),
    ("C126", "partial", ["LvsRules.joins_through_cuts_partial", "LvsRules.sides_apart_partial", "LvsRules.crossing_apart_partial", "LvsRules.parts_of_technology", "LvsRules.cuts_of_technology", "LvsRules.inductor_pin_shorts", "LvsRules.mim_plate_shorts", "LvsRules.crossing_ex"],
     "proved for sky130A, and for sg13g2 for layouts without pins of inductors in which Metal5 encloses the enlarged lower plates of MIM capacitors; otherwise the sg13g2 script joins TopMetal1 with TopMetal2 at a pin of an inductor (inductor_pin_shorts) and a Metal5 wire with the plate of a MIM capacitor beside it (mim_plate_shorts); the silicon and the layers of single devices count as one conductor"),
    ("C127", "proved", ["LvsRules.mim_plates_apart", "LvsRules.mim_top_joined", "LvsRules.mim_ex"],
     "for sky130A, layouts without vertical parallel plate capacitors, inside of which a via joins the two metals"),
    ("C128", "partial", ["LvsRules.drawn_extracted_partial", "LvsRules.extracted_once", "LvsRules.topvia1_extracted", "LvsRules.metal5_differs", "LvsRules.extracted_ex"],
     "For every layout: the layers of the LVS result that KPEX extracts for a drawn layer have a shape exactly where the specification table Shown says, and never two of them at one place. Missing because the script does otherwise: on sg13g2 Metal5, fillers are not extracted and slits and resistors are (metal5_differs)."),
    ("C129", "partial", ["LvsRules.licon_extracted_partial", "LvsRules.cont_extracted_partial", "LvsRules.tap_contacts_lost", "LvsRules.contact_twice", "LvsRules.contact_ex"],
     "Which contacts are extracted is stated exactly. Missing because the scripts do otherwise: contacts on taps are in no extracted layer (tap_contacts_lost), and a poly contact inside a VPP capacitor is in two (contact_twice)."),
    ("C130", "proved", ["Decks.lvs_keeps", "Decks.lvs_keeps_ex", "Decks.sg_letter_case", "Decks.sky_letter_case"],
     "KLayout's handling of options `-rd name=value` is part of the model."),
    ("C131", "proved", ["Decks.schematic_read", "Decks.pins_unique", "Decks.third_net_lost", "Decks.tap_bulk_fails", "Decks.schematic_ex"],
     "From the elements that KLayout parses on; elements need a net for each pin, and the theorems about what happens otherwise are included."),
    ("C132", "proved", ["Decks.values_read", "Decks.value_unique", "Decks.values_ex"],
     "Numbers are exact."),
    ("C133", "partial", ["Decks.written_in_order_partial", "Decks.transistors_written_partial", "Decks.models_sorted", "Decks.out_of_order",
                         "Decks.without_letter", "Decks.units_lost", "Decks.written_ex"],
     "Proved for bipolar transistors, antenna diodes, poly resistors, MIM capacitors and inductor3, and for MOS transistors up to source and drain. The code violates it for the other devices, and for the unit of lengths; both are proved."),
    ("C134", "partial", ["Decks.mim_combined", "Decks.diode_combined", "Decks.bjt_combined", "Decks.combined_close", "Decks.refused_kept", "Decks.res_parallel", "Decks.res_series_partial", "Decks.refused_moved", "Decks.combined_ex", "Decks.devices_ex"],
     "Two resistors in series that are not combined are nevertheless rewired (refused_moved); all else is proved for one call of a combiner, with the sizes equal (they may differ by less than 1e-9, combined_close)."),
    ("C135", "proved", ["LvsRules.fet_drawn_sky", "LvsRules.fet_drawn_sg", "LvsRules.fet_found_sky", "LvsRules.fet_found_sg", "LvsRules.one_fet_sky", "LvsRules.one_fet_sg", "LvsRules.fets_ex"],
     "The table of drawings (Sky130A.fets, Sg13g2.fets) is stated in layer and datatype numbers. KLayout's extractors, which turn the gates into devices, are not modelled."),
    ("C136", "partial", ["LvsRules.p_source_sky", "LvsRules.n_source_sky", "LvsRules.gate_sky", "LvsRules.p_bulk_sky", "LvsRules.p_source_sg", "LvsRules.n_source_sg", "LvsRules.gate_sg", "LvsRules.p_bulk_sg", "LvsRules.n_bulk_sg", "LvsRules.source_beside_gates", "LvsRules.pdiode_sky", "LvsRules.ndiode_sky_partial", "LvsRules.ndiode_reversed", "LvsRules.diodes_sg", "LvsRules.terminals_reached", "LvsRules.terminals_some", "LvsRules.vpp_bulk_alone", "LvsRules.vpp_bulk_used", "LvsRules.terminals_ex"],
     "Three diodes of sky130A are reversed (ndiode_reversed) and the bulk of VPP capacitors is joined with no wire (vpp_bulk_alone). The anode of the remaining diode to n diffusion is a hole of a tap ring, which is not modelled place by place. Bipolar transistors: only that their terminals are on connected layers; resistors and MIM capacitors: C139."),
    ("C137", "partial", ["Decks.words_kept_partial", "Decks.nets_kept_partial", "Decks.bulk_as_model", "Decks.brace_lost", "Decks.merged_iff", "Decks.nets_merged", "Decks.lines_ex"],
     "Kept for names without brackets, dollar signs and slashes; names that differ only in these are merged (merged_iff), a resistor with a bulk net loses its model (bulk_as_model), and values of resistors and capacitors that do not end with a letter, digit or underscore lose their end (brace_lost)."),
    ("C138", "partial", ["Decks.sky_written_partial", "Decks.sky_params", "Decks.sky_vpp_back", "Decks.sky_fuses", "Decks.sky_vpp_open", "Decks.sky_netlist_ex"],
     "Holds for all devices but fuses, whose lines are no elements (sky_fuses); a capacitor between fingers with two nets is read with an open terminal (sky_vpp_open). Parameters of capacitors between fingers are not written. The terminals and parameters of KLayout's device classes are taken from its documentation."),
    ("C139", "partial", ["LvsRules.resistor_sky", "LvsRules.resistors_all_sky", "LvsRules.iso_sky", "LvsRules.diffusion_resistor_sky", "LvsRules.poly_resistor_sky", "LvsRules.marked_sky_partial", "LvsRules.resistor_sg", "LvsRules.marked_sg", "LvsRules.poly_resistor_sg", "LvsRules.poly_ends_sg", "LvsRules.mim_sky", "LvsRules.mim_found_sky", "LvsRules.mim_sg", "LvsRules.fuse_open_sky", "LvsRules.poly_open_sky", "LvsRules.poly_open_sg", "LvsRules.rsil_off_poly", "LvsRules.passives_ex", "LvsRules.passives_ex_sg"],
     "Violated: fuses of met2 and met3 (fuse_open_sky), poly in rpm or urpm without psdm (poly_open_sky) and poly of sg13g2 without extblock (poly_open_sg) are cut out of the wire without a device; a poly resistor of sg13g2 can lie outside of poly (rsil_off_poly). Which width a poly resistor of sky130A has is the subject of C144; the bottom plates of sg13g2, which are sized, are that of C142."),
    ("C140", "partial", ["Decks.res_straight_partial", "Decks.res_upright_partial", "Decks.res_bend_partial", "Decks.mim_rect_partial", "Decks.varicap_inside_partial", "Decks.res_overhang", "Decks.res_parallel_ex", "Decks.mim_notch", "Decks.mim_cross", "Decks.varicap_crossing", "Decks.measure_ex", "Decks.ind_diameter_partial", "Decks.ind_opposite", "Decks.ind_no_space", "Decks.ind_ex"],
     "Proved for straight resistors, resistors with one bend, rectangular MIM capacitors, varactors with the gate inside of the active area, and inductors with all pins on the lower side, given the width, the space and the number of turns. Violated: inductors with pins on opposite sides (ind_opposite) or without edges that face each other (ind_no_space), a marker wider than the poly (res_overhang), resistors of different width between the same ports (res_parallel_ex), capacitors in the shape of an L (mim_notch) or of a cross (mim_cross), varactors whose gate crosses the active area (varicap_crossing). Resistors with more bends are not treated."),
    ("C141", "partial", ["Decks.terminals_ports_partial", "Decks.resistor_alone_partial", "Decks.cluster_ports_partial", "Decks.ports_wrong", "Decks.series_lost", "Decks.terminal_cut", "Decks.terminal_cut_ex", "Decks.touching_ports", "Decks.measure_ex", "Decks.alone_ex"],
     "Proved for rectangular ports that do not touch each other and clusters with one marker. Violated: resistors in series with a common piece of poly are lost (series_lost), of a port with more than four corners only four are kept (terminal_cut), and ports that touch each other end the extraction with an exception (touching_ports)."),
    ("C142", "partial", ["Decks.cmim_extracted_partial", "Decks.mim_plates", "Decks.mim_count", "Decks.rfmim_open", "Decks.cmim_ex"],
     "Exactly the capacitors with more than 1.2 um to all others are extracted; the others are lost, because their enlarged lower plates are merged (cmim_extracted_partial). An rfcmim without substrate marker has open terminals (rfmim_open). Capacitors are rectangles on Metal5 under TopMetal1."),
    ("C143", "proved", ["Decks.label_recognised", "Decks.label_ex"],
     "For all patterns without line breaks, tabs and form feeds. KLayout's reading of patterns is modelled as far as the results of the function need it."),
    ("C144", "partial", ["Decks.models_edges", "Decks.models_straight", "Decks.models_right_partial", "Decks.models_twice", "Decks.models_none", "Decks.models_ex"],
     "Proved: a straight resistor gets the models for its width and those for its length, so it is one device of the right model if its length is not the width of another model. Violated: if the length is the width of another model, it is two devices (models_twice); if its width is that of no model, it is no device (models_none) or gets the model for its length (models_ex). For bodies with horizontal and vertical edges that touch no other one; the two kinds of resistors have the same limits and share the definition."),
    ("C145", "partial", ["Decks.inductor2_extracted", "Decks.inductor3_extracted_partial", "Decks.inductor3_without_A", "Decks.inductor2_swapped", "Decks.inductors_ex"],
     "Which inductors are extracted is exact for both kinds. Violated: inductor3 does not need a pin LA, because the script asks for LB twice (inductor3_without_A), and the terminals are ordered by position and not by label (inductor2_swapped). For one marker apart from others with one winding, whose pins are rectangles with one label each; the terminal of the substrate is not modelled."),
    ("C146", "partial", ["Decks.npn13G2_emitter", "Decks.npn13G2l_emitter_partial", "Decks.npn13G2v_emitter_partial", "Decks.longest_lost", "Decks.sky_npn_1x1_partial", "Decks.sky_npn_1x2_partial", "Decks.sky_pnp_0p68_partial", "Decks.sky_pnp_3p40_partial", "Decks.sky_one_model", "Decks.sky_oblong", "Decks.emitters_ex"],
     "sg13g2 is exact; violated: the longest emitters of npn13G2l and npn13G2v, 2.5 um and 5 um, are not selected, because KLayout excludes the upper limit (longest_lost). sky130A: emitters of the right size get their model and no other; violated: some with one side outside of the tolerance get it too (sky_oblong). For emitters that touch no other one and no poly; the other terminals are not modelled here."),
    ("C147", "partial", ["Decks.Vpp.vpp_one_model_partial", "Decks.Vpp.selected_pairs", "Decks.Vpp.vpp_all_used", "Decks.Vpp.vpp_one_side",
      "Decks.Vpp.vpp_twice", "Decks.Vpp.vpp_ex"],
     "Rectangular markers that touch no other marker. At most one model is false for four pairs of selections, which are listed and occur."),
    ("C148", "partial", ["Decks.Vpp.vpp_combs_partial", "Decks.Vpp.vpp_two_pieces", "Decks.Vpp.vpp_device_iff", "Decks.Vpp.vpp_dummy_first",
      "Decks.Vpp.nhv_shorted", "Decks.Vpp.vpp_plates_ex"],
     "Proved if the first polygon of the conductor is a comb. Violated otherwise: a piece that comes first takes the place of a comb "
     "(vpp_dummy_first); and the model of 11.3 um by 11.8 um takes the first polygons of met2 and met1, which can be one comb (nhv_shorted)."),
    ("C149", "partial", ["Decks.HvNpn.hv_npn_exact_partial", "Decks.HvNpn.hv_npn_emitters", "Decks.HvNpn.hv_npn_outside", "Decks.HvNpn.hv_npn_shared",
      "Decks.HvNpn.hv_npn_ex"],
     "Proved for transistors with a collector of their own, whose boxes are apart. Violated for n transistors with a common collector, which are n * n devices: "
     "each base is combined with each emitter (hv_npn_shared)."),
    ("C150", "partial", ["Decks.HvNpn.nodes_own_partial", "Decks.HvNpn.hv_npn_chip_partial", "Decks.HvNpn.neighbour_selected",
      "Decks.HvNpn.nodes_ex"],
     "Proved for transistors whose collectors are apart. Violated for collectors that touch: the neighbour is selected for both models "
     "(neighbour_selected)."),
    ("C151", "partial", ["Decks.HvNpn.esd_exact_partial", "Decks.HvNpn.esd_lost", "Decks.HvNpn.esd_shared_ring", "Decks.HvNpn.esd_ex"],
     "Proved for diodes with a collector of their own, whose boxes are apart. Violated for two diodes of the same voltage in a common "
     "collector, which are both lost (esd_shared_ring)."),
    ("C152", "partial", ["Decks.clamp_one_partial", "Decks.clamp_taps", "Decks.clamp_both", "Decks.clamps_ex"],
     "Proved for clamps with one label and one tap. Violated otherwise: a clamp is as many devices as it has taps (clamp_taps), and with both "
     "labels it is both models (clamp_both)."),
    ("C153", "partial", ["Decks.Taps.tap_exact_partial", "Decks.Taps.tap_rectangles", "Decks.Taps.tap_too_large", "Decks.Taps.tap_shorts", "Decks.Taps.taps_ex",
     "Decks.Taps.tap_device_partial", "Decks.Taps.tap_lost", "Decks.Taps.tap_device_ex"],
     "Exact if the bounding box of each tap holds only taps and excluded layers, as for rectangular taps. Violated in all other cases: the script takes the "
     "bounding box, so the area is too large (tap_too_large), and the contacts of devices inside a guard ring are joined to it (tap_shorts); "
     "a ring around a place without well is no device (tap_lost)."),
]
CLAIMS.sort(key=lambda c: int(c[0][1:]))

here = os.path.dirname(os.path.abspath(__file__))
out = {"claims": [{"property": p, "status": s, "theorems": [NS + t for t in ts], "note": n} for p, s, ts, n in CLAIMS]}
with open(os.path.join(here, "..", "MANIFEST.json"), "w") as f:
    json.dump(out, f, indent=1)
    f.write("\n")
