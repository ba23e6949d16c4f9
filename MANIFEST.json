{
 "claims": [
  {
   "property": "C01",
   "status": "proved",
   "theorems": [
    "Ditto.Units.C01_to_meters_physical",
    "Ditto.Units.C01_from_meters_physical",
    "Ditto.Units.C01_round_trip",
    "Ditto.Units.C01_round_trip_from",
    "Ditto.Units.C01_round_trip_exact",
    "Ditto.Units.C01_round_trip_inexact",
    "Ditto.Units.C01_writer_agrees"
   ],
   "note": ""
  },
  {
   "property": "C02",
   "status": "proved",
   "theorems": [
    "Ditto.Units.C02_total_preserved_to_meters",
    "Ditto.Units.C02_total_preserved_from_meters",
    "Ditto.Units.C02_inverse_round_trip"
   ],
   "note": ""
  },
  {
   "property": "C03",
   "status": "proved",
   "theorems": [
    "Ditto.Units.C03_none_iff_unsupported",
    "Ditto.Units.C03_case_insensitive",
    "Ditto.Units.C03_unit_conversion_physical",
    "Ditto.Units.C03_unit_conversion_none"
   ],
   "note": ""
  },
  {
   "property": "C04",
   "status": "proved",
   "theorems": [
    "Ditto.Mat.C04_error_iff_empty",
    "Ditto.Mat.C04_none_iff_not_square",
    "Ditto.Mat.C04_symmetric",
    "Ditto.Mat.C04_lower_triangular",
    "Ditto.Mat.C04_full_matrix",
    "Ditto.Mat.C04_not_idempotent"
   ],
   "note": "symmetrize is not idempotent and doubles off-diagonal entries of an already full matrix; both are stated as theorems."
  },
  {
   "property": "C05",
   "status": "partial",
   "theorems": [
    "Ditto.Mat.C05_unequal_counts_violated",
    "Ditto.Mat.C05_default_violated",
    "Ditto.Mat.C05_formula",
    "Ditto.Mat.C05_symmetric_partial",
    "Ditto.Mat.C05_one_phase_partial",
    "Ditto.Mat.C05_wrong_value_violated"
   ],
   "note": "The code multiplies the off-diagonal blocks in the transposed order: wrong or impossible for general matrices (C05_wrong_value_violated, C05_unequal_counts_violated, C05_default_violated). C05_formula states what is computed for all inputs; the Kron formula holds for symmetric input with as many phases as neutrals and for one phase (_partial)."
  },
  {
   "property": "C06",
   "status": "proved",
   "theorems": [
    "Ditto.Mat.C06_similarity3",
    "Ditto.Mat.C06_similarity2",
    "Ditto.Mat.C06_balanced",
    "Ditto.Mat.C06_balanced2",
    "Ditto.Mat.C06_accessors",
    "Ditto.Mat.C06_other_sizes",
    "Ditto.Mat.C06_two_phase_no_negative"
   ],
   "note": ""
  },
  {
   "property": "C07",
   "status": "proved",
   "theorems": [
    "Ditto.Heap.C07_lookup_last",
    "Ditto.Heap.C07_keyError",
    "Ditto.Heap.C07_all_retrievable_iff_distinct"
   ],
   "note": ""
  },
  {
   "property": "C08",
   "status": "partial",
   "theorems": [
    "Ditto.Heap.C08_history",
    "Ditto.Heap.C08_remove_error",
    "Ditto.Heap.C08_iter_models",
    "Ditto.Heap.C08_failed_constructor_violated"
   ],
   "note": "Holds for all histories of successful operations; an object whose constructor raises is nevertheless in the store (C08_failed_constructor_violated)."
  },
  {
   "property": "C09",
   "status": "proved",
   "theorems": [
    "Ditto.Heap.C09_exact",
    "Ditto.Heap.C09_needs_members",
    "Ditto.Heap.C09_succeeds"
   ],
   "note": ""
  },
  {
   "property": "C10",
   "status": "partial",
   "theorems": [
    "Ditto.Heap.C10_exact",
    "Ditto.Heap.C10_names_gone_partial",
    "Ditto.Heap.C10_duplicates_violated",
    "Ditto.Heap.C10_type_mismatch"
   ],
   "note": "Exact effect on the model list for all inputs; names are gone if model_1 has no duplicate names (_partial), with duplicates one object survives (C10_duplicates_violated)."
  },
  {
   "property": "C11",
   "status": "proved",
   "theorems": [
    "Ditto.Heap.C11_add",
    "Ditto.Heap.C11_succeeds"
   ],
   "note": ""
  },
  {
   "property": "C12",
   "status": "partial",
   "theorems": [
    "Ditto.Heap.C12_overwrite",
    "Ditto.Heap.C12_raw_list_violated",
    "Ditto.Heap.C12_type_mismatch"
   ],
   "note": "Holds for every merge that returns (C12_overwrite). A merge never returns if a matched object of model_2 has a non-empty list of plain values such as impedance_matrix (C12_raw_list_violated)."
  },
  {
   "property": "C13",
   "status": "proved",
   "theorems": [
    "Ditto.Heap.C13_nothing_lost",
    "Ditto.Heap.C13_filled"
   ],
   "note": ""
  },
  {
   "property": "C14",
   "status": "partial",
   "theorems": [
    "Ditto.Heap.C14_phases_partial",
    "Ditto.Heap.C14_last_phase_partial",
    "Ditto.Heap.C14_violated"
   ],
   "note": "Violated: phases of model_2 after the last phase of model_1 are dropped (C14_violated). C14_phases_partial determines the exact set of phases after a merge of two non-empty lists; C14_last_phase_partial is the property when model_1 has the last phase."
  },
  {
   "property": "C15",
   "status": "proved",
   "theorems": [
    "Ditto.Net.C15_exact",
    "Ditto.Net.C15_equipment",
    "Ditto.Net.C15_error_iff"
   ],
   "note": ""
  },
  {
   "property": "C16",
   "status": "proved",
   "theorems": [
    "Ditto.Net.C16_arborescence",
    "Ditto.Net.C16_shortest",
    "Ditto.Net.C16_keyError",
    "Ditto.Net.C16_equipment"
   ],
   "note": ""
  },
  {
   "property": "C17",
   "status": "proved",
   "theorems": [
    "Ditto.Net.C17_only_swaps",
    "Ditto.Net.C17_connections",
    "Ditto.Net.C17_oriented",
    "Ditto.Net.C17_idempotent",
    "Ditto.Net.C17_rebuild"
   ],
   "note": ""
  },
  {
   "property": "C18",
   "status": "partial",
   "theorems": [
    "Ditto.Net.C18_route",
    "Ditto.Net.C18_nearest_partial",
    "Ditto.Net.C18_none_partial",
    "Ditto.Net.C18_keyError",
    "Ditto.Net.C18_unknown",
    "Ditto.Net.C18_terminates",
    "Ditto.Net.C18_violated"
   ],
   "note": "The walk terminates and returns the nearest transformer when no one-terminal edge lies between; otherwise KeyError (C18_keyError), so with a power source as source nodes without transformer raise instead of giving None (C18_violated)."
  },
  {
   "property": "C19",
   "status": "partial",
   "theorems": [
    "Ditto.Net.C19_effect",
    "Ditto.Net.C19_ok_iff",
    "Ditto.Net.C19_exact_partial",
    "Ditto.Net.C19_flags_violated",
    "Ditto.Net.C19_parallel_violated",
    "Ditto.Net.C19_two_violated"
   ],
   "note": "Exact effect and exact error condition for every model. The property fails for is_breaker=False lines, parallel lines and parallel open switches (three _violated theorems); C19_exact_partial covers all other models."
  },
  {
   "property": "C20",
   "status": "partial",
   "theorems": [
    "Ditto.Net.C20_names",
    "Ditto.Net.C20_exact_partial",
    "Ditto.Net.C20_error_iff",
    "Ditto.Net.C20_leaf_violated"
   ],
   "note": "Exact for nodes that feed something; a leaf gives the empty list (C20_leaf_violated)."
  },
  {
   "property": "C21",
   "status": "proved",
   "theorems": [
    "Ditto.Net.C21_internal"
   ],
   "note": ""
  },
  {
   "property": "C22",
   "status": "partial",
   "theorems": [
    "Ditto.Net.C22_finds_nothing",
    "Ditto.Net.C22_noop",
    "Ditto.Net.C22_violated"
   ],
   "note": "find_cycles looks at the BFS tree and never finds a cycle: delete_cycles is a no-op (C22_noop) and loops stay (C22_violated)."
  },
  {
   "property": "C23",
   "status": "partial",
   "theorems": [
    "Ditto.Net.C23_connected",
    "Ditto.Net.C23_effect",
    "Ditto.Net.C23_exact_partial",
    "Ditto.Net.C23_succeeds",
    "Ditto.Net.C23_positions_violated",
    "Ditto.Net.C23_keyError"
   ],
   "note": "Exact effect; positions of unnamed nodes stay in the store (C23_positions_violated). The final build_networkx() uses the default source."
  },
  {
   "property": "C24",
   "status": "partial",
   "theorems": [
    "Ditto.Net.C24_true_iff",
    "Ditto.Net.C24_false_iff",
    "Ditto.Net.C24_two_violated",
    "Ditto.Net.C24_links",
    "Ditto.Net.C24_names_violated"
   ],
   "note": "Exact for models whose objects are named, without parallel open devices, and whose loads have different names (C24_true_iff, C24_false_iff). Violated: a load with two sources raises AttributeError (C24_two_violated); loads that share a name hide each other (C24_names_violated). C24_links says when the links are those of the devices that are not open."
  },
  {
   "property": "C25",
   "status": "partial",
   "theorems": [
    "Ditto.Net.C25_true_iff",
    "Ditto.Net.C25_false_iff",
    "Ditto.Net.C25_source_violated",
    "Ditto.Net.C25_parallel_violated"
   ],
   "note": "Exact for models with a source whose objects are named, without parallel open devices (C25_true_iff, C25_false_iff); the cycle basis is modelled by its size. Violated: no source raises TypeError, and loops of two parallel lines are not seen."
  },
  {
   "property": "C26",
   "status": "partial",
   "theorems": [
    "Ditto.Net.C26_true_iff",
    "Ditto.Net.C26_false_iff",
    "Ditto.Net.C26_sound_partial",
    "Ditto.Net.C26_subset_violated",
    "Ditto.Net.C26_center_tap"
   ],
   "note": "True exactly for transformers with two windings on the same phases, or center taps with equal two-phase secondaries and at most two primary phases; False and TypeError cases are exact. The documented subset rule fails (C26_subset_violated): `set in set` is never true."
  },
  {
   "property": "C27",
   "status": "partial",
   "theorems": [
    "Ditto.Net.C27_iff",
    "Ditto.Net.C27_one_source_partial",
    "Ditto.Net.C27_radial",
    "Ditto.Net.C27_sources_violated",
    "Ditto.Net.C27_characters_violated"
   ],
   "note": "Exact description for every model whose loads are connected (C27_iff): every load needs exactly one path to every source, so the property holds as stated for one source (C27_one_source_partial) and is violated for two (C27_sources_violated). A load without a connection is matched by the characters of its name (C27_characters_violated). C27_radial: agrees with C24 and C25."
  },
  {
   "property": "C28",
   "status": "partial",
   "theorems": [
    "Ditto.Net.C28_upsized",
    "Ditto.Net.C28_never_decreases",
    "Ditto.Net.C28_effect_partial",
    "Ditto.Net.C28_winding_violated",
    "Ditto.Net.C28_sources_violated"
   ],
   "note": "For every model only ratings change, to a catalogue size above the first winding's rating (C28_upsized, C28_never_decreases). The exact effect is proved for one source on a radial network (C28_effect_partial). The other windings may shrink (C28_winding_violated) and two sources count a load twice (C28_sources_violated)."
  },
  {
   "property": "C29",
   "status": "partial",
   "theorems": [
    "Ditto.Net.C29_iff",
    "Ditto.Net.C29_radial",
    "Ditto.Net.C29_two_violated",
    "Ditto.Net.C29_tie_violated"
   ],
   "note": "Exact answer on radial networks (C29_radial; C29_iff also with open devices that do not shorten paths). Two transformers on a path are accepted (C29_two_violated), an open tie that shortens the path makes the check raise KeyError (C29_tie_violated)."
  },
  {
   "property": "C30",
   "status": "partial",
   "theorems": [
    "Ditto.Json.C30_roundtrip_partial",
    "Ditto.Json.C30_unsupported",
    "Ditto.Json.C30_rejects",
    "Ditto.Json.C30_none_violated",
    "Ditto.Json.C30_storage_violated",
    "Ditto.Json.C30_timeseries_violated",
    "Ditto.Json.C30_matrix_violated"
   ],
   "note": "Objects, order and attributes survive if all list elements are of kinds the writer knows and None only occurs as the value of attributes with default None. Missing because false: None becomes the default value, phase storages are lost, time series and other unsupported classes cannot be read, reactances None cannot be written (_violated theorems, C30_unsupported). The JSON text and its sorting are not modelled."
  },
  {
   "property": "C31",
   "status": "partial",
   "theorems": [
    "Ditto.Net.C31_terminates",
    "Ditto.Net.C31_effect",
    "Ditto.Net.C31_box",
    "Ditto.Net.C31_all_partial",
    "Ditto.Net.C31_equator_violated",
    "Ditto.Net.C31_names_violated"
   ],
   "note": "The fill always terminates (C31_terminates); the exact effect is C31_effect, for distinct names; filled nodes stay in every box around the located ones (C31_box); every node connected to a located one is filled if the located ones avoid zero coordinates (C31_all_partial). An average of exactly 0 (C31_equator_violated) or a shared name (C31_names_violated) leaves a node unfilled. Coordinates are rationals."
  },
  {
   "property": "C32",
   "status": "partial",
   "theorems": [
    "Ditto.Net.C32_effect",
    "Ditto.Net.C32_unique",
    "Ditto.Net.C32_limit",
    "Ditto.Net.C32_lines",
    "Ditto.Net.C32_sourceVoltage",
    "Ditto.Net.C32_noVoltage",
    "Ditto.Net.C32_start_violated",
    "Ditto.Net.C32_missing_violated"
   ],
   "note": "C32_effect gives the exact result for distinct names, known transformer voltages and a network less deep than python's recursion limit; C32_limit says when the recursion limit is hit; C32_unique that the route determines the voltage; C32_lines the effect on lines. With an explicit source the voltage of the sourcebus is used all the same (C32_start_violated) and a node without an object raises KeyError (C32_missing_violated). C32_sourceVoltage: the voltage started from is that of the last sourcebus that has one; C32_noVoltage: without one AttributeError. Voltages are rationals."
  },
  {
   "property": "C33",
   "status": "partial",
   "theorems": [
    "Ditto.Net.C33_keeps",
    "Ditto.Net.C33_effect_partial",
    "Ditto.Net.C33_succeeds_iff",
    "Ditto.Net.C33_valueError",
    "Ditto.Net.C33_leaf_violated",
    "Ditto.Net.C33_source_violated"
   ],
   "note": "C33_keeps: no set name is ever changed, also when an exception ends the method. C33_effect_partial: on success exactly what is below the head of a feeder (a substation transformer that feeds something and has no substation below) gets its names. C33_succeeds_iff: when it succeeds; C33_valueError: the exception. Partial because a substation whose to_element feeds nothing names nothing (C33_leaf_violated) and a PowerSource below a substation raises AttributeError half way (C33_source_violated). Assumes distinct names."
  },
  {
   "property": "C34",
   "status": "partial",
   "theorems": [
    "Ditto.Net.C34_effect",
    "Ditto.Net.C34_conserves_partial",
    "Ditto.Net.C34_tag",
    "Ditto.Net.C34_wires",
    "Ditto.Net.C34_upstream",
    "Ditto.Net.C34_noTransformer",
    "Ditto.Net.C34_repeat_violated",
    "Ditto.Net.C34_source_violated"
   ],
   "note": "C34_effect: the phase loads of every load after a run, in terms of the nearest transformer above it (phases, totals, equal shares); C34_wires: the wires of the lines in between, all others unchanged; C34_tag, C34_upstream: center tap marks and the stored name; C34_conserves_partial: the written power is conserved if nothing was dropped before. C34_repeat_violated: each further run multiplies the power; C34_source_violated, C34_noTransformer: one load without transformer above ends the whole call. Powers are rationals; windings with different numbers of phases give ValueError (numpy since 1.24)."
  },
  {
   "property": "C35",
   "status": "partial",
   "theorems": [
    "Ditto.Net.C35_choice",
    "Ditto.Net.C35_valueError",
    "Ditto.Net.C35_succeeds_iff",
    "Ditto.Net.C35_explicit",
    "Ditto.Net.C35_isolated_violated",
    "Ditto.Net.C35_unnamed",
    "Ditto.Net.C35_unnamed_violated"
   ],
   "note": "C35_choice and C35_succeeds_iff: the source is used iff it is the only sourcebus name and is an end of some object; C35_valueError for none or several; C35_explicit. An isolated sourcebus raises KeyError (C35_isolated_violated), an additional unnamed one TypeError (C35_unnamed_violated)."
  },
  {
   "property": "C36",
   "status": "proved",
   "theorems": [
    "Ditto.Metrics.C36_succeeds",
    "Ditto.Metrics.C36_lengths",
    "Ditto.Metrics.C36_overhead",
    "Ditto.Metrics.C36_partition",
    "Ditto.Metrics.C36_exclusive"
   ],
   "note": "Lengths by voltage class, number of phases and overhead phases are exactly the sums over the lines; voltage classes compare sqrt(3) times the voltage over the reals; classes are exclusive and cover all lines with known voltage up to 69 kV. ext stands for exceptions of the parts that are not modelled (any function), so that the theorems hold whenever the call succeeds; C36_succeeds gives conditions for success."
  },
  {
   "property": "C37",
   "status": "partial",
   "theorems": [
    "Ditto.Metrics.C37_imbalance",
    "Ditto.Metrics.C37_distribution",
    "Ditto.Metrics.C37_demand",
    "Ditto.Metrics.C37_total_partial",
    "Ditto.Metrics.C37_phases_partial",
    "Ditto.Metrics.C37_reactive",
    "Ditto.Metrics.C37_low",
    "Ditto.Metrics.C37_percentages",
    "Ditto.Metrics.C37_estimate_violated",
    "Ditto.Metrics.C37_dropped_violated",
    "Ditto.Metrics.C37_function_partial",
    "Ditto.Metrics.C37_function_violated"
   ],
   "note": "C37_demand is exact for every model. The total is the power of the phase loads only if no load is estimated (C37_estimate_violated: a load without power counts with the kVA of its transformer); phases add up only if every estimated load has a phase in use (C37_dropped_violated); total_demand differs with unused phase loads (C37_function_violated)."
  },
  {
   "property": "C38",
   "status": "proved",
   "theorems": [
    "Ditto.Net.C38_mapping",
    "Ditto.Net.C38_unique"
   ],
   "note": "get_transformer_load_mapping: for every network that can be built the mapping is found and is exactly the relation 'the transformer is the first one on the way from the load up to the source', loads in model order; no load below two transformers."
  },
  {
   "property": "C39",
   "status": "partial",
   "theorems": [
    "Ditto.Net.C39_split_partial",
    "Ditto.Net.C39_rejects",
    "Ditto.Net.C39_unchanged",
    "Ditto.Net.C39_lengths",
    "Ditto.Net.C39_choices",
    "Ditto.Net.C39_duplicate_violated",
    "Ditto.Net.C39_unknown_violated"
   ],
   "note": "split_network_into_feeders ends with connected feeders, nodes only ever added, for all orders of components/choices of paths by networkx (C39_choices shows such choices exist for every network); failing inputs are exactly those with a feeder without a node in the network or with unconnected nodes. Missing because false: with repeated feeder names the second feeder raises StopIteration (C39_duplicate_violated); given nodes that are not in the network are not in the feeder network (C39_unknown_violated)."
  },
  {
   "property": "C40",
   "status": "partial",
   "theorems": [
    "Ditto.Net.C40_ends",
    "Ditto.Net.C40_classes",
    "Ditto.Net.C40_tags_partial",
    "Ditto.Net.C40_getFeeder",
    "Ditto.Net.C40_series_violated",
    "Ditto.Net.C40_outside_violated",
    "Ditto.Net.C40_missing_violated",
    "Ditto.Net.C40_source_violated"
   ],
   "note": "tag_objects always ends; every object gets the feeder of its node, else of the nearest mapped node above, else keeps it; get_feeder agrees. Hypotheses: different names, feeder names not empty, nodes above others are objects and mapped ones are Node objects, unmapped objects are in the network. Missing because false: unconnected objects raise NetworkXError, nameless predecessors KeyError, a mapped PowerSource does not count, time series keep the old feeder (four _violated theorems)."
  },
  {
   "property": "C41",
   "status": "partial",
   "theorems": [
    "Ditto.Cli.C41_unknown_format",
    "Ditto.Cli.C41_unknown_metric",
    "Ditto.Cli.C41_reads_first",
    "Ditto.Cli.C41_success",
    "Ditto.Cli.C41_converts_partial",
    "Ditto.Cli.C41_options",
    "Ditto.Cli.C41_json_violated",
    "Ditto.Cli.C41_warehouse_violated",
    "Ditto.Cli.C41_metric_violated",
    "Ditto.Cli.C41_metric_none_violated"
   ],
   "note": "Steps of the convert and metric commands with arbitrary failing steps: unknown formats end the command before any step; nothing is written before the parse step succeeded; success characterised, with last step and arguments. Missing because false: the registered json reader never gets its input, --warehouse is ignored, metrics with an unknown output format are silently dropped (_violated theorems)."
  },
  {
   "property": "C42",
   "status": "partial",
   "theorems": [
    "Ditto.Defaults.C42_off",
    "Ditto.Defaults.C42_assigns_partial",
    "Ditto.Defaults.C42_untouched_partial",
    "Ditto.Defaults.C42_restricted",
    "Ditto.Defaults.C42_remove_matrices",
    "Ditto.Defaults.C42_matrices",
    "Ditto.Defaults.C42_succeeds",
    "Ditto.Defaults.C42_twice_partial",
    "Ditto.Defaults.C42_classes_violated",
    "Ditto.Defaults.C42_missing_violated",
    "Ditto.Defaults.C42_transformer_violated",
    "Ditto.Defaults.C42_twice_violated",
    "Ditto.Defaults.C42_line_violated"
   ],
   "note": "Exact effect on listed, restricted and other attributes, with and without the remove flag; success; idempotence for objects with both matrices. Missing because false: attributes are set on objects of every class, values missing in the file become None, the transformer connection type is never set, twice differs from once for objects without matrices, a file without Line matrices fails (_violated theorems). Trait validation is not modelled."
  },
  {
   "property": "C43",
   "status": "partial",
   "theorems": [
    "Ditto.Units.C43_synergi_physical_partial",
    "Ditto.Units.C43_mixed_case_fails",
    "Ditto.Units.C43_unknown_rejected"
   ],
   "note": "Holds for lower-case units only: a mixed-case unit passes the check but raises KeyError (C43_mixed_case_fails)."
  },
  {
   "property": "C44",
   "status": "proved",
   "theorems": [
    "Ditto.Heap.C44_unmatched_untouched",
    "Ditto.Heap.C44_models"
   ],
   "note": ""
  },
  {
   "property": "C45",
   "status": "partial",
   "theorems": [
    "Ditto.Net.C45_effect_partial",
    "Ditto.Net.C45_volunteer_violated",
    "Ditto.Net.C45_assertion",
    "Ditto.Net.C45_cut",
    "Ditto.Net.C45_erased_violated"
   ],
   "note": "C45_effect_partial gives the exact result; C45_assertion the assertion on networks that are not connected; C45_cut the graph whose components are taken. In every network one node per group between transformers (the 'volunteer' popped out of the group) keeps no voltage (C45_volunteer_violated), and voltages known above the first transformer are overwritten with None (C45_erased_violated)."
  },
  {
   "property": "C46",
   "status": "partial",
   "theorems": [
    "Ditto.Metrics.C46_overhead_partial",
    "Ditto.Metrics.C46_overhead_violated"
   ],
   "note": "Exact values are given; they are the percentages of the property only if there is no line of the other level: the code divides by the length of lines of both levels (C46_overhead_violated)."
  },
  {
   "property": "C47",
   "status": "partial",
   "theorems": [
    "Ditto.Metrics.C47_lines",
    "Ditto.Metrics.C47_devices",
    "Ditto.Metrics.C47_loads",
    "Ditto.Metrics.C47_transformers_partial",
    "Ditto.Metrics.C47_capacity",
    "Ditto.Metrics.C47_average",
    "Ditto.Metrics.C47_customers_violated",
    "Ditto.Metrics.C47_ratios"
   ],
   "note": "All counters are exact. Missing because false: the number of customers per transformer counts loads (C47_customers_violated)."
  },
  {
   "property": "C48",
   "status": "partial",
   "theorems": [
    "Ditto.Metrics.C48_rejects",
    "Ditto.Metrics.C48_feeders_partial",
    "Ditto.Metrics.C48_succeeds",
    "Ditto.Metrics.C48_sum",
    "Ditto.Metrics.C48_duplicate_violated"
   ],
   "note": "For different feeder names: feeders, their order, and metrics are exactly those of the objects of the feeder. Missing because false: a feeder given twice is post-processed twice (C48_duplicate_violated)."
  },
  {
   "property": "C49",
   "status": "partial",
   "theorems": [
    "Ditto.Metrics.C49_lengths_partial",
    "Ditto.Metrics.C49_lengths_violated",
    "Ditto.Metrics.C49_unknown_violated",
    "Ditto.Metrics.C49_counts",
    "Ditto.Metrics.C49_percentages",
    "Ditto.Metrics.C49_dropped_violated",
    "Ditto.Metrics.C49_percentage_violated"
   ],
   "note": "Counts agree always. Lengths agree only where comparing v and sqrt(3) v with the limits gives the same class; violated at 900 V, at 66 kV, for unknown voltages (TypeError), for percentages without demand (ZeroDivisionError) and with unused phase loads."
  },
  {
   "property": "C50",
   "status": "partial",
   "theorems": [
    "Ditto.Dss.C50_wire_data",
    "Ditto.Dss.C50_cable_data",
    "Ditto.Dss.C50_code_data",
    "Ditto.Dss.C50_device_data",
    "Ditto.Dss.C50_choice",
    "Ditto.Dss.C50_wires_partial",
    "Ditto.Dss.C50_geometries_partial",
    "Ditto.Dss.C50_linecodes_partial",
    "Ditto.Dss.C50_names_violated",
    "Ditto.Dss.C50_cable_violated",
    "Ditto.Dss.C50_codes_violated",
    "Ditto.Dss.C50_file_violated",
    "Ditto.Dss.C50_clean_violated"
   ],
   "note": "Content of wire, cable and code definitions, the choice between geometry and code, and that each wire, geometry and code reference leads to the line's own data, end to end. Missing because false: names that look like numbered names overwrite data, a cable named like an overhead wire is written as an overhead wire, the third of three different lines with one nameclass gets the code of the second, the code of a line without nameclass may be in another feeder's file only, names differing in special characters become one (_violated theorems). Numbers are exact; text formatting of numbers is not modelled."
  },
  {
   "property": "C51",
   "status": "partial",
   "theorems": [
    "Ditto.Dss.C51_distributed_partial",
    "Ditto.Dss.C51_together",
    "Ditto.Dss.C51_empty",
    "Ditto.Dss.C51_substations_partial",
    "Ditto.Dss.C51_buses_partial",
    "Ditto.Dss.C51_master",
    "Ditto.Dss.C51_feeders_violated",
    "Ditto.Dss.C51_capitals_violated",
    "Ditto.Dss.C51_nameless_violated",
    "Ditto.Dss.C51_overwritten_violated",
    "Ditto.Dss.C51_collision_violated",
    "Ditto.Dss.C51_buses_violated"
   ],
   "note": "The distribution loop shared by write_loads, write_lines, write_capacitors, write_transformers etc., write_bus_coords and the redirects of the master file, for every set iteration order. C51_distributed_partial assumes names usable as folders (Separable); C51_together and C51_substations_partial need little. Missing because false: separate feeders without separate substations raises KeyError with two feeders, as do substations with capitals (C51_feeders_violated is universal), groups of nameless objects raise KeyError, names that differ in special characters overwrite files, names that join to the same key write objects twice, bus names merge. Texts of objects are abstract here; the masters of single feeders are not modelled."
  },
  {
   "property": "C52",
   "status": "partial",
   "theorems": [
    "Ditto.Dss.C52_phases",
    "Ditto.Dss.C52_write",
    "Ditto.Dss.C52_read_phases",
    "Ditto.Dss.C52_read",
    "Ditto.Dss.C52_zip_read",
    "Ditto.Dss.C52_zip_errors",
    "Ditto.Dss.C52_read_errors",
    "Ditto.Dss.C52_disabled",
    "Ditto.Dss.C52_round_trip_partial",
    "Ditto.Dss.C52_balanced_partial",
    "Ditto.Dss.C52_unbalanced_violated",
    "Ditto.Dss.C52_zip_violated",
    "Ditto.Dss.C52_reactive_violated",
    "Ditto.Dss.C52_delta_violated",
    "Ditto.Dss.C52_phase_violated"
   ],
   "note": "write_loads and parse_loads over any ordered field with a square root (\u211d is an instance). OpenDSS between them is the hypothesis Reports (it reports what it is given; power factor defined by P and Q). Missing because false: shares of the phases are lost (two different loads have the same text), ZIP coefficients are never written, reactive power without active power is read as nan, of delta loads below 300 V with several phases only the first phase is read, phases s1 and s2 are written as None, the neutral is not read; the name gets the prefix load_. Time series of loads are not modelled."
  },
  {
   "property": "C53",
   "status": "partial",
   "theorems": [
    "Ditto.Dss.C53_write",
    "Ditto.Dss.C53_round_trip_partial",
    "Ditto.Dss.C53_control_partial",
    "Ditto.Dss.C53_two_violated",
    "Ditto.Dss.C53_steps_violated",
    "Ditto.Dss.C53_measuring_violated",
    "Ditto.Dss.C53_mode_violated"
   ],
   "note": "write_capacitors and parse_capacitors with controls; OpenDSS is the hypothesis ReportsCap. Missing because false: capacitors of two phases are read with twice their reactive power (universal theorem C53_two_violated), of several steps only the first is read, the measured element gets another prefix Line. with each round trip, the mode activePower is lost. R and XL of the reader are not modelled."
  },
  {
   "property": "C54",
   "status": "partial",
   "theorems": [
    "Ditto.Dss.C54_write",
    "Ditto.Dss.C54_round_trip_partial",
    "Ditto.Dss.C54_switch_partial",
    "Ditto.Dss.C54_short_violated",
    "Ditto.Dss.C54_breaker_violated",
    "Ditto.Dss.C54_recloser_violated",
    "Ditto.Dss.C54_open_violated",
    "Ditto.Dss.C54_partly_open_violated",
    "Ditto.Dss.C54_breaker_state_violated",
    "Ditto.Dss.C54_wire_fuse_violated",
    "Ditto.Dss.C54_neutral_violated",
    "Ditto.Dss.C54_intermediate_violated",
    "Ditto.Dss.C54_intermediate_files"
   ],
   "note": "write_lines and parse_lines for lines described by codes; OpenDSS is the hypothesis ReportsLine. C54_round_trip_partial covers lines of any number of phase wires and symmetric matrices of any size. Missing because false: lines shorter than 1 m become 1 m, breakers become switches unless named breaker, reclosers are not written, open lines without switch vanish, the state of single phases and of named breakers is lost, wires of fuses are not marked, neutral wires are lost, only the last line of a file keeps its intermediate points (all as theorems _violated, most universal). Lines with geometry are not covered by the reader model."
  },
  {
   "property": "C55",
   "status": "partial",
   "theorems": [
    "Ditto.Dss.C55_overhead_partial",
    "Ditto.Dss.C55_cable_partial",
    "Ditto.Dss.C55_resistance_violated",
    "Ditto.Dss.C55_units_violated",
    "Ditto.Dss.C55_cable_violated",
    "Ditto.Dss.C55_cable_switch_violated",
    "Ditto.Dss.C55_neutral_violated",
    "Ditto.Dss.C55_names",
    "Ditto.Dss.C55_names_violated"
   ],
   "note": "Wires of parse_lines for lines with a geometry, linked to C50 by DescribesLine; OpenDSS is the hypothesis ReportsGeometry. Missing because false: the total resistance is multiplied by the length of the line, no unit is written for it (TypeError if OpenDSS reports none), the concentric neutral is always that of the last cable of the network, underground switches with two wires cannot be read, neutrals before phases shift the phases. Wire data that does not exist and missing properties (where the code calls the logger) are not modelled. C55_names: names of the conductors are those OpenDSS reports, except in the case C55_names_violated."
  },
  {
   "property": "C56",
   "status": "partial",
   "theorems": [
    "Ditto.Net.C56_ampacity_partial",
    "Ditto.Net.C56_from_model",
    "Ditto.Net.C56_unset_violated",
    "Ditto.Net.C56_dead_end_violated",
    "Ditto.Net.C56_source_violated",
    "Ditto.Net.C56_missing",
    "Ditto.Net.C56_succeeds",
    "Ditto.Net.C56_unknown_violated",
    "Ditto.Net.C56_endless_violated"
   ],
   "note": "set_switching_devices_ampacity with the random numbers as an arbitrary schedule. C56_ampacity_partial covers every run that ends without exception. Missing because false: an ampacity None (the default) raises TypeError, a device at a dead end raises ValueError, the first device at the source UnboundLocalError, a ring without ampacities is searched for ever (all as theorems, all but the last universal). C56_missing and C56_succeeds give the outcome of a single step: a device whose end is not in the network raises ValueError, and one next to a line with an ampacity takes it at the first draw."
  },
  {
   "property": "C57",
   "status": "partial",
   "theorems": [
    "Ditto.Net.C57_walk_partial",
    "Ditto.Net.C57_feeder_partial",
    "Ditto.Net.C57_high",
    "Ditto.Net.C57_only_switches",
    "Ditto.Net.C57_succeeds",
    "Ditto.Net.C57_voltage_violated",
    "Ditto.Net.C57_stale_violated"
   ],
   "note": "replace_kth_switch_with_recloser with the drawn depths as an arbitrary list; C57_only_switches and C57_succeeds hold in every built network. Missing because false: an edge without equipment (a load) makes the previous switch count again; a connection without voltage raises TypeError."
  },
  {
   "property": "C58",
   "status": "partial",
   "theorems": [
    "Ditto.Net.C58_effect",
    "Ditto.Net.C58_frame",
    "Ditto.Net.C58_two_partial",
    "Ditto.Net.C58_three_partial",
    "Ditto.Net.C58_last_violated",
    "Ditto.Net.C58_grows_violated",
    "Ditto.Net.C58_succeeds"
   ],
   "note": "terminals_to_phases. C58_effect is complete; the phases agree with the loads if these agree with each other. Missing because false: of loads on different phases only the last counts; with three windings a phase is added for every load."
  },
  {
   "property": "C59",
   "status": "partial",
   "theorems": [
    "Ditto.Net.C59_headnode_partial",
    "Ditto.Net.C59_unknown_violated",
    "Ditto.Net.C59_convention_violated",
    "Ditto.Net.C59_reversed",
    "Ditto.Net.C59_two_violated"
   ],
   "note": "set_feeder_headnodes on strings as lists of characters. Missing because false: the documented names a->b and b->a_S are never matched (universal), the voltages are only set for reversed names, two > in a head node raise ValueError."
  },
  {
   "property": "C60",
   "status": "partial",
   "theorems": [
    "Ditto.Net.C60_switches_partial",
    "Ditto.Net.C60_blank_violated",
    "Ditto.Net.C60_word_violated",
    "Ditto.Net.C60_dot_violated",
    "Ditto.Net.C60_case_violated",
    "Ditto.Net.C60_upper_violated"
   ],
   "note": "open_close_switches from the text of the file. C60_switches_partial covers all files of entries New Line.name key=value. Missing because false: blank lines and words without = raise IndexError and stop the method, names with dots are cut, values are compared with case, lines of the model with capital letters are never found."
  },
  {
   "property": "C61",
   "status": "partial",
   "theorems": [
    "Ditto.Dss.C61_write",
    "Ditto.Dss.C61_two_partial",
    "Ditto.Dss.C61_grounded_violated",
    "Ditto.Dss.C61_neutral_violated",
    "Ditto.Dss.C61_delta_violated",
    "Ditto.Dss.C61_secondary_violated",
    "Ditto.Dss.C61_order_violated",
    "Ditto.Dss.C61_emergency_violated",
    "Ditto.Dss.C61_substation_violated",
    "Ditto.Dss.C61_center_partial",
    "Ditto.Dss.C61_center_delta_partial",
    "Ditto.Dss.C61_no_phases_violated",
    "Ditto.Dss.C61_reactances_violated",
    "Ditto.Dss.C61_resistance_violated",
    "Ditto.Dss.C61_same_phase_violated",
    "Ditto.Dss.C61_windings_violated",
    "Ditto.Dss.C61_ends",
    "Ditto.Dss.C61_stale_violated",
    "Ditto.Dss.C61_duplicate_violated",
    "Ditto.Dss.C61_default"
   ],
   "note": "write_transformers and parse_transformers. C61_two_partial covers two windings of the same phases, the primary not grounded and no single phase in delta; C61_center_partial a center tap in wye with one phase. OpenDSS enters as the hypothesis ReportsTrafo. Missing because false (universal theorems): grounded primaries lose their phases or gain one, single phases in delta gain a phase, secondary phases are lost, emergency ratings are those of the last winding, the substation flag is lost, reactances of center taps change places, default resistances are shifted by one winding, three windings without center tap and other numbers are not written, transformers with four buses are read with the ends of the one before, duplicates have an empty name."
  },
  {
   "property": "C62",
   "status": "partial",
   "theorems": [
    "Ditto.Dss.C62_control_partial",
    "Ditto.Dss.C62_name_violated",
    "Ditto.Dss.C62_bandwidth_violated",
    "Ditto.Dss.C62_bandcenter_violated",
    "Ditto.Dss.C62_voltage_violated",
    "Ditto.Dss.C62_losses_violated",
    "Ditto.Dss.C62_steps_violated",
    "Ditto.Dss.C62_compensator_violated",
    "Ditto.Dss.C62_compensator_partial",
    "Ditto.Dss.C62_pt_phase_partial",
    "Ditto.Dss.C62_pt_phase_violated",
    "Ditto.Dss.C62_new_partial",
    "Ditto.Dss.C62_emergency_violated",
    "Ditto.Dss.C62_lists_violated",
    "Ditto.Dss.C62_errors",
    "Ditto.Dss.C62_unnamed",
    "Ditto.Dss.C62_not_found",
    "Ditto.Dss.C62_winding_default",
    "Ditto.Dss.C62_connection_violated",
    "Ditto.Dss.C62_file"
   ],
   "note": "write_regulators and parse_regulators, with the compensators gathered by write_transformers. C62_control_partial and C62_new_partial (with C62_pt_phase_partial, C62_compensator_partial) cover what is kept. OpenDSS enters as hypotheses ReportsReg and ReportsNew. Missing because false (universal theorems): names get a prefix and are cut at a dot, the bandwidth grows by a fifth, the setpoint replaces the band center on another scale so that a regulator read and written again has a voltage higher by a fifth, losses raise KeyError, steps are not written, compensators are written only if the regulator has the name of its transformer, the monitored phase is lost for single phases B and C, emergency ratings grow by 1000, lists with missing values are shifted, unknown transformers stop the reader."
  },
  {
   "property": "C63",
   "status": "partial",
   "theorems": [
    "Ditto.Carson.C63_primitive",
    "Ditto.Carson.C63_primitive_errors",
    "Ditto.Carson.C63_sequence_violated",
    "Ditto.Carson.C63_overhead_partial",
    "Ditto.Carson.C63_resistance_violated",
    "Ditto.Carson.C63_symmetric",
    "Ditto.Carson.C63_reduction_violated",
    "Ditto.Carson.C63_missing_violated",
    "Ditto.Carson.C63_default_distances",
    "Ditto.Carson.C63_sizes",
    "Ditto.Carson.C63_cables_partial",
    "Ditto.Carson.C63_cable_resistance_violated",
    "Ditto.Carson.C63_cable_defaults",
    "Ditto.Carson.C63_no_strands",
    "Ditto.Carson.C63_distance"
   ],
   "note": "over real and complex numbers. C63_primitive (with C63_primitive_errors) is the full claim for get_primitive_impedance_matrix. C63_overhead_partial and C63_cables_partial cover mutual impedances, reactances and neutrals of get_phase_impedances; the blocks of Carson's matrix for cables are symmetric, so that the reduction of C05 is right, and the neutral block is shown to be invertible. Missing because false (universal theorems): resistances are taken per foot, the neutral of four wires raises AttributeError, missing values of overhead wires raise NameError, sequence impedances are never computed."
  },
  {
   "property": "C64",
   "status": "partial",
   "theorems": [
    "Ditto.Dss.C64_nodes",
    "Ditto.Dss.C64_phases",
    "Ditto.Dss.C64_phases_once",
    "Ditto.Dss.C64_last_line",
    "Ditto.Dss.C64_unspecified_violated",
    "Ditto.Dss.C64_readable",
    "Ditto.Dss.C64_neutral_violated",
    "Ditto.Dss.C64_unnamed_violated",
    "Ditto.Dss.C64_capitals_violated",
    "Ditto.Dss.C64_malformed_violated",
    "Ditto.Dss.C64_positions_partial",
    "Ditto.Dss.C64_merged_violated",
    "Ditto.Dss.C64_unplaced_violated"
   ],
   "note": "text of the coordinates file modelled as characters; float printing and parsing a parameter (hypothesis Printable). C64_nodes, C64_phases, C64_phases_once, C64_last_line and C64_readable characterise the reader completely for well formed files; C64_positions_partial is the round trip. Missing because false (universal theorems): lines with neutrals raise ValueError, small equipment without numbers raises KeyError, neutrals of transformers and loads are phases without name, buses with capitals are split in two nodes, malformed lines become nodes, nodes with names that differ in special characters become one, nodes without position are not written."
  },
  {
   "property": "C65",
   "status": "partial",
   "theorems": [
    "Ditto.Dss.C65_written",
    "Ditto.Dss.C65_lost_violated",
    "Ditto.Dss.C65_name_violated",
    "Ditto.Dss.C65_fallback",
    "Ditto.Dss.C65_fallback_violated",
    "Ditto.Dss.C65_read",
    "Ditto.Dss.C65_source_partial",
    "Ditto.Dss.C65_position_violated",
    "Ditto.Dss.C65_text_violated",
    "Ditto.Dss.C65_feeders",
    "Ditto.Dss.C65_transformer_violated",
    "Ditto.Dss.C65_fields_violated"
   ],
   "note": "C65_source_partial: bus, voltage, per unit value and impedances survive. C65_read and C65_feeders characterise the readers. Missing because false (universal theorems): the position is the one of the last bus of the coordinates file; a text in that line stops the reader; angle, rated and emergency power, phases and name are not written; a source without name raises TypeError; names with _src in the middle lose four characters; the transformer of a feeder is the name of its substation; a line of the feeder file without four fields stops the reader."
  },
  {
   "property": "C66",
   "status": "partial",
   "theorems": [
    "Ditto.Dss.C66_buses",
    "Ditto.Dss.C66_kept",
    "Ditto.Dss.C66_connected",
    "Ditto.Dss.C66_unconnected",
    "Ditto.Dss.C66_windings",
    "Ditto.Dss.C66_shadowed_violated",
    "Ditto.Dss.C66_fourth_violated"
   ],
   "note": "objects as far as the function looks at them, `model[name]` as the last object of that name. C66_buses, C66_kept, C66_connected, C66_unconnected, C66_windings characterise the result. Missing because false (universal theorems): a node whose name is also that of a later object (a load named like its bus) gets no voltage and that object's voltage is overwritten; fourth windings get none."
  },
  {
   "property": "C67",
   "status": "partial",
   "theorems": [
    "Ditto.Dss.C67_written",
    "Ditto.Dss.C67_unvolted_violated",
    "Ditto.Dss.C67_zero_violated",
    "Ditto.Dss.C67_storage_partial",
    "Ditto.Dss.C67_energy_violated",
    "Ditto.Dss.C67_power_violated",
    "Ditto.Dss.C67_sign_violated",
    "Ditto.Dss.C67_lost_violated",
    "Ditto.Dss.C67_name_violated",
    "Ditto.Dss.C67_bus_violated",
    "Ditto.Dss.C67_bus_partial",
    "Ditto.Dss.C67_phases_violated",
    "Ditto.Dss.C67_generators",
    "Ditto.Dss.C67_generator_phases_violated"
   ],
   "note": "C67_storage_partial: voltage, rated power, state, rates, efficiencies, impedances and number of phases survive; C67_written when writing succeeds; C67_generators. Missing because false (universal theorems): energies, reserve and powers shrink by 1000; the sign of reactive power is lost; name gets the class in front; bus keeps the numbers, so that the storage is connected to no node; phases are lost; a storage without voltage raises TypeError; ratings, shapes and triggers are not written; three phase generators have phase C only; disabled generators are read. There is no writer for generators."
  },
  {
   "property": "C68",
   "status": "partial",
   "theorems": [
    "Ditto.Dss.C68_values",
    "Ditto.Dss.C68_written",
    "Ditto.Dss.C68_phases_violated",
    "Ditto.Dss.C68_bases_violated",
    "Ditto.Dss.C68_voltwatt",
    "Ditto.Dss.C68_voltvar_partial",
    "Ditto.Dss.C68_voltvar_violated",
    "Ditto.Dss.C68_both_violated",
    "Ditto.Dss.C68_curve_violated",
    "Ditto.Dss.C68_bracket_violated",
    "Ditto.Dss.C68_voltwatt_curve"
   ],
   "note": "C68_values, C68_written, C68_voltwatt, C68_voltvar_partial, C68_voltwatt_curve. Missing because false (universal theorems): with one volt-watt PV system in the feeder no volt-var control is written; only the last PV system of a feeder can have the combined control; the volt-var curve is missing if all kinds occur; a stray bracket is written after volt-watt controls; PV systems of 300 V or more are written with three phases; voltage bases of feeder and network differ. Timeseries of PV systems and the order within sets are not modelled."
  },
  {
   "property": "C69",
   "status": "partial",
   "theorems": [
    "Ditto.Gld.C69_one",
    "Ditto.Gld.C69_two",
    "Ditto.Gld.C69_three",
    "Ditto.Gld.C69_four_partial",
    "Ditto.Gld.C69_four_below_violated",
    "Ditto.Gld.C69_crossarm_violated",
    "Ditto.Gld.C69_four_above",
    "Ditto.Gld.C69_single_violated",
    "Ditto.Gld.C69_infeasible_violated",
    "Ditto.Gld.C69_zero_violated"
   ],
   "note": "C69_one, C69_two, C69_three in full; C69_four_partial (all distances, heights of the outermost wires), C69_four_above (all heights if no wire is under the line through the outermost ones). Missing because false (universal theorems): heights of wires under that line, in particular of a neutral under a crossarm; a single wire without height is not placed; default positions for distances that are 0 or contradict the triangle inequality are 30 meters high instead of 30 feet. Floating point equality is not modelled: numbers are real."
  },
  {
   "property": "C70",
   "status": "partial",
   "theorems": [
    "Ditto.Gld.C70_phases_partial",
    "Ditto.Gld.C70_units_violated",
    "Ditto.Gld.C70_neutral_partial",
    "Ditto.Gld.C70_direct_violated",
    "Ditto.Gld.C70_unplaced_violated",
    "Ditto.Gld.C70_missing_violated"
   ],
   "note": "C70_phases_partial (self impedances, zeros for absent phases), C70_neutral_partial (the result eliminates the neutral from the primitive matrix, for all currents). Missing because false (universal theorems): every mutual impedance is too large by a constant since distances in meters are used in the formula for feet; without spacing mutual impedances are 0; a neutral without resistance or radius raises ZeroDivisionError; a configuration with z11 to z33 cannot be read."
  },
  {
   "property": "C71",
   "status": "partial",
   "theorems": [
    "Ditto.Glm.C71_objects_partial",
    "Ditto.Glm.C71_kept_violated",
    "Ditto.Glm.C71_unnamed_violated",
    "Ditto.Glm.C71_class_violated",
    "Ditto.Glm.C71_attribute_violated",
    "Ditto.Glm.C71_nested_violated",
    "Ditto.Glm.C71_units_violated",
    "Ditto.Glm.C71_parallel_violated",
    "Ditto.Glm.C71_include_partial",
    "Ditto.Glm.C71_include_violated",
    "Ditto.Glm.C71_include_missing",
    "Ditto.Glm.C71_schedule"
   ],
   "note": "C71_objects_partial (files without nested objects, with known classes and attributes, named objects, values of one word), C71_include_partial, C71_include_missing, C71_schedule in full. Missing because false (universal theorems): nested objects overwrite attributes of the outer one; units are ignored; classes and attributes out of the schema, a brace directly after the class, and unnamed objects without two ends abort the reading; unnamed objects between the same ends replace each other; files included by included files are not read; objects of files read before are found again. The schema and cron expressions are parameters."
  },
  {
   "property": "C72",
   "status": "partial",
   "theorems": [
    "Ditto.Glm.C72_nodes_partial",
    "Ditto.Glm.C72_name_violated",
    "Ditto.Glm.C72_voltage_violated",
    "Ditto.Glm.C72_source",
    "Ditto.Glm.C72_unnamed_violated",
    "Ditto.Glm.C72_last_phase_violated",
    "Ditto.Glm.C72_quoted_violated"
   ],
   "note": "C72_nodes_partial (all nodes, order, phases, voltages) and C72_source in full. Missing because false (universal theorems): every name gets a letter n; a node without voltage gets 12470 volts; a node without name makes a file that cannot be read; the last phase is lost without neutral; with quotation marks the mark and the neutral become phases. Printing and parsing of numbers are parameters."
  },
  {
   "property": "C73",
   "status": "partial",
   "theorems": [
    "Ditto.Cyme.C73_names",
    "Ditto.Cyme.C73_names_apart",
    "Ditto.Cyme.C73_repeated_rows",
    "Ditto.Cyme.C73_mixed",
    "Ditto.Cyme.C73_update_headers_violated",
    "Ditto.Cyme.C73_update_headers",
    "Ditto.Cyme.C73_tables_partial",
    "Ditto.Cyme.C73_rows",
    "Ditto.Cyme.C73_same_key_violated",
    "Ditto.Cyme.C73_glued_violated",
    "Ditto.Cyme.C73_equality_violated",
    "Ditto.Cyme.C73_cut_violated",
    "Ditto.Cyme.C73_last_column_violated",
    "Ditto.Cyme.C73_second_format",
    "Ditto.Cyme.C73_positions",
    "Ditto.Cyme.C73_format_word_violated",
    "Ditto.Cyme.C73_information"
   ],
   "note": "C73_tables_partial (tables with format, each followed by an empty line or the end of the file, with different first cells; values up to blanks at the ends), C73_rows (no row of one table is lost), C73_positions, C73_second_format in full. Missing because false (universal theorems): rows with the same first cell in two tables replace each other; without an empty line the rows of the next table are read as well; rows with an equality sign are lost; a header at the end of the file aborts the reading; the last column keeps the end of the line; the word format in the first row spoils a table without format. C73_names: each kind of data is looked up under the name of its table in CYME, and C73_names_apart: no two kinds share a table."
  },
  {
   "property": "C74",
   "status": "partial",
   "theorems": [
    "Ditto.Cyme.C74_sections_partial",
    "Ditto.Cyme.C74_feeder_sections_violated",
    "Ditto.Cyme.C74_network_of_section",
    "Ditto.Cyme.C74_end_violated",
    "Ditto.Cyme.C74_next_table_violated",
    "Ditto.Cyme.C74_format_word_violated",
    "Ditto.Cyme.C74_second_table_violated",
    "Ditto.Cyme.C74_formats_first",
    "Ditto.Cyme.C74_network_name_violated"
   ],
   "note": "C74_sections_partial (values and network of each section, values of each network, kind of network, nothing else), C74_network_of_section (every file: networks of sections exist), C74_formats_first in full. Missing because false (universal theorems): the list of the sections of a network is always empty; a file that ends with the table raises StopIteration; a header without an empty line before it raises ValueError; a section with the word format_section in its row raises IndexError; a second table of sections is not read; a network name in the last column keeps the end of the line (witness)."
  },
  {
   "property": "C75",
   "status": "partial",
   "theorems": [
    "Ditto.Cyme.C75_file_partial",
    "Ditto.Cyme.C75_loads_partial",
    "Ditto.Cyme.C75_power_partial",
    "Ditto.Cyme.C75_reactive_violated",
    "Ditto.Cyme.C75_users_violated",
    "Ditto.Cyme.C75_negative_violated",
    "Ditto.Cyme.C75_leading_violated",
    "Ditto.Cyme.C75_type_violated",
    "Ditto.Cyme.C75_factor_violated",
    "Ditto.Cyme.C75_line_end_violated",
    "Ditto.Cyme.C75_unknown_section",
    "Ditto.Cyme.C75_connection_violated",
    "Ditto.Cyme.C75_shares_partial",
    "Ditto.Cyme.C75_class_violated"
   ],
   "note": "C75_loads_partial (name, phases with their shares, network, node, connection, transformers), C75_power_partial (sum of the powers), C75_shares_partial (constant current, power and impedance of the class of customers), C75_unknown_section (KeyError), C75_file_partial (from the lines of the load file to the loads). Missing because false (universal theorems): of several rows those with reactive power only are ignored; users are those of the last row; rows with negative powers are ignored; a leading power factor makes the load a generator; unknown types of values use the powers of the row before, negative power factors its reactive power; connections of sections with capital letters are lost; later rows of a section have the class of whatever row came before; an end of line in the phases gets a share of the power. float and int are parameters; loads replaced in the store are not represented."
  },
  {
   "property": "C76",
   "status": "partial",
   "theorems": [
    "Ditto.Cyme.C76_header_partial",
    "Ditto.Cyme.C76_no_units",
    "Ditto.Cyme.C76_version_violated",
    "Ditto.Cyme.C76_head_nodes",
    "Ditto.Cyme.C76_head_nodes_missing",
    "Ditto.Cyme.C76_nodes",
    "Ditto.Cyme.C76_plain_nodes",
    "Ditto.Cyme.C76_buses_only_violated",
    "Ditto.Cyme.C76_no_number",
    "Ditto.Cyme.C76_head_node_case_violated",
    "Ditto.Cyme.C76_connections_partial",
    "Ditto.Cyme.C76_connection_line_end_violated"
   ],
   "note": "C76_header_partial, C76_no_units, C76_nodes (nodes and buses with connectors), C76_head_nodes, C76_head_nodes_missing, C76_no_number, C76_connections_partial. Missing because false (universal theorems): a version with two dots ends the reading with an error; if the table of the nodes starts with the format of buses no bus has a position; head nodes are in lower case, the nodes are not, so a file with capital letters has no feeder that starts at a node; connections whose node is in the last column are not found. float is a parameter; elevation is not represented."
  },
  {
   "property": "C77",
   "status": "partial",
   "theorems": [
    "Ditto.Cyme.C77_equivalents_partial",
    "Ditto.Cyme.C77_sources_partial",
    "Ditto.Cyme.C77_phases_angle_violated",
    "Ditto.Cyme.C77_power_unit_violated",
    "Ditto.Cyme.C77_power_violated",
    "Ditto.Cyme.C77_not_substations_violated",
    "Ditto.Cyme.C77_no_section_violated",
    "Ditto.Cyme.C77_no_equivalent"
   ],
   "note": "C77_equivalents_partial, C77_sources_partial (node, name, voltage, power, impedances, in order), C77_no_equivalent (TypeError). Missing because false (universal theorems): no source has phases and all angles are zero (texts, refused by the traits); the power is 1000 times the MVA, not in VA, and missing for source equivalents; sources that are not substations are left out; a source at a node without section gets the name and node of the source before, or ends the reading with UnboundLocalError. float is a parameter. Also for C73: C73_mixed (several kinds of tables in one pass), C73_update_headers and C73_update_headers_violated."
  },
  {
   "property": "C78",
   "status": "partial",
   "theorems": [
    "Ditto.Cyme.C78_regulators_partial",
    "Ditto.Cyme.C78_different_violated",
    "Ditto.Cyme.C78_equipment_violated",
    "Ditto.Cyme.C78_overlap_violated",
    "Ditto.Cyme.C78_fourth_violated"
   ],
   "note": "C78_regulators_partial. Missing because false (universal theorems): if two regulators on a section have different set points, or need different equipment, the merged row has none; a phase that two regulators share is there twice; next to a regulator of three phases the row has no phases at all. Values are given as they are printed; the digest for long names is a parameter; sections and transformers that are written for regulators are not represented."
  },
  {
   "property": "C79",
   "status": "partial",
   "theorems": [
    "Ditto.Cyme.C79_written_partial",
    "Ditto.Cyme.C79_regulators_partial",
    "Ditto.Cyme.C79_errors",
    "Ditto.Cyme.C79_bandwidth_violated",
    "Ditto.Cyme.C79_third_band_partial",
    "Ditto.Cyme.C79_voltage_violated",
    "Ditto.Cyme.C79_number_violated"
   ],
   "note": "C79_regulators_partial, C79_third_band_partial, C79_errors and C79_written_partial (files of C78 read back). Missing because false (universal theorems): the bandwidths that a row gives for phases A and B are overwritten by that of the equipment; the voltages of windings stay in kV; phases given as a number (7 for ABC) make one regulator of a phase 7. Positions are never set and compensators never read. In C79_written_partial the sections are a hypothesis. Float parsing is a parameter; numbers are any semiring; section_duplicates is not represented."
  },
  {
   "property": "C80",
   "status": "partial",
   "theorems": [
    "Ditto.Cyme.C80_capacitors_partial",
    "Ditto.Cyme.C80_delta_violated",
    "Ditto.Cyme.C80_control_violated",
    "Ditto.Cyme.C80_same_section_violated",
    "Ditto.Cyme.C80_errors"
   ],
   "note": "C80_capacitors_partial and C80_errors. Missing because false (universal theorems): a series and a shunt capacitor on the same section share a key, and only the later one is kept (C80_same_section_violated); the voltage of a capacitor in delta is multiplied by the square root of 3 although it is already between lines (C80_delta_violated); the phase that is monitored is never kept, because a list is assigned to a text (C80_control_violated). Positions are never set. Float parsing and the square root of 3 are parameters; numbers are any semiring with a linear order."
  },
  {
   "property": "C81",
   "status": "partial",
   "theorems": [
    "Ditto.Cyme.C81_back_partial",
    "Ditto.Cyme.C81_missing_phase_violated",
    "Ditto.Cyme.C81_capacitors_partial",
    "Ditto.Cyme.C81_current_violated",
    "Ditto.Cyme.C81_no_voltage_violated",
    "Ditto.Cyme.C81_no_power_violated"
   ],
   "note": "C81_capacitors_partial (written rows) and C81_back_partial (round trip of capacitors with three phases). Missing because false (universal theorems): a capacitor without one of the three phases has an empty cell, and reading the files fails with a ValueError (C81_missing_phase_violated); without a voltage, the row has one cell less than there are columns, so that all later cells are shifted (C81_no_voltage_violated); without power, the equipment has the voltage in the column of the power (C81_no_power_violated); control by the current is compared to a text with a capital letter after lower casing, and is written as unknown (C81_current_violated). The control and its limits are not read, names become `Cap_` and the section, and the sections of the round trip are a hypothesis. Printing and parsing of numbers, the digest and the square root of 3 are parameters; numbers are any ordered field."
  },
  {
   "property": "C82",
   "status": "partial",
   "theorems": [
    "Ditto.Cyme.C82_back_violated",
    "Ditto.Cyme.C82_no_element_violated",
    "Ditto.Cyme.C82_empty_violated",
    "Ditto.Cyme.C82_loads_partial",
    "Ditto.Cyme.C82_tap_violated",
    "Ditto.Cyme.C82_unphased_violated"
   ],
   "note": "C82_loads_partial (written rows and sections). Missing because false (universal theorems): no load is ever read back, since the rows lack the number of customers that the reader wants (KeyError), and center taps lack the powers (ValueError): C82_back_violated; the file without loads ends in an exception of its reader (C82_empty_violated); the row of a load without node is shifted by one column, so that the reactive power is read as the active one (C82_no_element_violated); center taps without shares lose their powers (C82_tap_violated), and phase loads without phase are lost (C82_unphased_violated). Printing and parsing of numbers, the digest and the date are parameters; numbers are any field."
  },
  {
   "property": "C83",
   "status": "partial",
   "theorems": [
    "Ditto.Cyme.C83_transformers_partial",
    "Ditto.Cyme.C83_impedance_violated",
    "Ditto.Cyme.C83_three_power_violated",
    "Ditto.Cyme.C83_ltc_violated",
    "Ditto.Cyme.C83_grounding_violated",
    "Ditto.Cyme.C83_no_windings_violated",
    "Ditto.Cyme.C83_errors"
   ],
   "note": "C83_transformers_partial, C83_errors. Missing because false (universal theorems): the impedance of the positive sequence is not used, because the matrices are multiplied element by element (C83_impedance_violated); the windings of transformers with three windings have no power (C83_three_power_violated); equipment that says it has no load tap changer gets one, whose highest step is the largest buck and the lowest one the largest boost (C83_ltc_violated); grounding transformers have no connection (C83_grounding_violated); auto transformers and phase shifters have no windings (C83_no_windings_violated). Missing: sections with rows in several tables, section_duplicates. Numbers are real and complex; parsing of numbers is a parameter."
  },
  {
   "property": "C84",
   "status": "partial",
   "theorems": [
    "Ditto.Cyme.C84_perimeter_partial",
    "Ditto.Cyme.C84_smallest_partial",
    "Ditto.Cyme.C84_perimeter_violated",
    "Ditto.Cyme.C84_panels"
   ],
   "note": "C84_panels (power is covered, with less than two panels too many, and no row of more than three panels), C84_perimeter_partial (best of the rectangles one side of which has the larger prime factors), C84_smallest_partial (best of all for powers of a prime and products of two primes). Missing because false: the smallest perimeter in general, e.g. for the squares of products of two primes p < q \u2264 p\u00b2 (C84_perimeter_violated), the first one being 36 panels, written as 9 by 4. Floating point numbers are exact."
  },
  {
   "property": "C85",
   "status": "partial",
   "theorems": [
    "Ditto.Cyme.C85_codes",
    "Ditto.Cyme.C85_back_violated",
    "Ditto.Cyme.C85_transformers_partial",
    "Ditto.Cyme.C85_base_violated",
    "Ditto.Cyme.C85_no_resistance_violated",
    "Ditto.Cyme.C85_zigzag_violated",
    "Ditto.Cyme.C85_stale_violated",
    "Ditto.Cyme.C85_errors"
   ],
   "note": "C85_transformers_partial, C85_codes (the reader finds the connections by the codes), C85_errors (what stops the writing). Missing because false: windings with different powers (C85_base_violated), windings without resistance (C85_no_resistance_violated), zigzag windings (C85_zigzag_violated), transformers without reactance (C85_stale_violated: they get that of the transformer before), and reading back (C85_back_violated: always a KeyError). Numbers are real; sections, load tap changers and the transformers that are written for regulators are not represented."
  },
  {
   "property": "C86",
   "status": "partial",
   "theorems": [
    "Ditto.Glm.C86_loads_partial",
    "Ditto.Glm.C86_succeeds",
    "Ditto.Glm.C86_error_kinds",
    "Ditto.Glm.C86_power_partial",
    "Ditto.Glm.C86_impedance_partial",
    "Ditto.Glm.C86_current_partial",
    "Ditto.Glm.C86_base_number",
    "Ditto.Glm.C86_base_schedule",
    "Ditto.Glm.C86_reactive_violated",
    "Ditto.Glm.C86_no_voltage_violated",
    "Ditto.Glm.C86_both_violated",
    "Ditto.Glm.C86_zip_violated",
    "Ditto.Glm.C86_base_text_violated",
    "Ditto.Glm.C86_unknown_schedule_violated",
    "Ditto.Glm.C86_factors_violated",
    "Ditto.Glm.C86_triplex_violated",
    "Ditto.Glm.C86_delta_violated"
   ],
   "note": "C86_loads_partial (all loads, what they are), C86_power_partial, C86_impedance_partial, C86_current_partial, C86_base_number, C86_base_schedule, C86_succeeds, C86_error_kinds. Missing because false: reactive loads (C86_reactive_violated), loads without voltage (C86_no_voltage_violated), loads with several parts (C86_both_violated), power factors (C86_zip_violated), base powers that are only a schedule (C86_base_text_violated) or have an unknown schedule or more factors (C86_unknown_schedule_violated, C86_factors_violated), delta connection (C86_delta_violated), triplex loads (C86_triplex_violated). Numbers are exact."
  },
  {
   "property": "C87",
   "status": "partial",
   "theorems": [
    "Ditto.Glm.C87_written_partial",
    "Ditto.Glm.C87_back_violated",
    "Ditto.Glm.C87_unnamed_violated",
    "Ditto.Glm.C87_phase_violated",
    "Ditto.Glm.C87_error_kinds",
    "Ditto.Glm.C87_zero_share_violated",
    "Ditto.Glm.C87_name_clash_violated"
   ],
   "note": "C87_written_partial (the written file says exactly what was in the loads), C87_error_kinds. False: no phase load comes back at all, because the phases are never written (C87_back_violated, which also proves that names, buses and voltages do come back); loads without name (C87_unnamed_violated) or with other phases than A, B, C (C87_phase_violated) make the file unreadable, loads with the name of a node delete the node (C87_name_clash_violated), ZIP loads without one of the three parts abort the writing (C87_zero_share_violated). Numbers are exact."
  },
  {
   "property": "C88",
   "status": "partial",
   "theorems": [
    "Ditto.Glm.C88_capacitors_partial",
    "Ditto.Glm.C88_succeeds",
    "Ditto.Glm.C88_error_kinds",
    "Ditto.Glm.C88_element_violated",
    "Ditto.Glm.C88_switch_violated",
    "Ditto.Glm.C88_low_only_violated",
    "Ditto.Glm.C88_mixed_violated",
    "Ditto.Glm.C88_mode_violated"
   ],
   "note": "C88_capacitors_partial, C88_succeeds, C88_error_kinds. False: no capacitor has a bus (C88_element_violated) and the switches are never read (C88_switch_violated); a low limit alone is lost (C88_low_only_violated); limits of voltage and reactive power get mixed (C88_mixed_violated); a capacitor controlled by voltage and reactive power has no control mode (C88_mode_violated). Numbers are exact."
  },
  {
   "property": "C89",
   "status": "partial",
   "theorems": [
    "Ditto.Glm.C89_written_partial",
    "Ditto.Glm.C89_capacitors_partial",
    "Ditto.Glm.C89_element_violated",
    "Ditto.Glm.C89_mode_violated",
    "Ditto.Glm.C89_switch_violated",
    "Ditto.Glm.C89_high_only_violated",
    "Ditto.Glm.C89_low_only_violated",
    "Ditto.Glm.C89_delay_violated"
   ],
   "note": "C89_written_partial (the written file says exactly what was in the capacitors), C89_capacitors_partial (names, voltages, limits, measured phases and reactive powers come back if there is no delay and both limits or none). False: a delay makes the file unreadable, its attribute is misspelt (C89_delay_violated); so does a low limit without a high one (C89_low_only_violated); a high limit without a low one is lost (C89_high_only_violated); control modes are written in words that GridLAB-D and the reader do not know (C89_mode_violated); phases that are switched in are written as open (C89_switch_violated); buses and switches do not come back (C89_element_violated). Numbers are exact."
  },
  {
   "property": "C90",
   "status": "partial",
   "theorems": [
    "Ditto.Glm.C90_switches_partial",
    "Ditto.Glm.C90_some_states_violated",
    "Ditto.Glm.C90_no_status_violated",
    "Ditto.Glm.C90_letter_violated",
    "Ditto.Glm.C90_status_violated"
   ],
   "note": "C90_switches_partial (if the phases are different letters A, B, C and either all of them have a state or none and there is a status; reading never fails for a file that can be parsed). False: one phase with a state makes the others disappear (C90_some_states_violated); without states and status only the first phase is kept (C90_no_status_violated); other letters such as D become wires (C90_letter_violated); the status of the object is ignored as soon as a phase has a state (C90_status_violated)."
  },
  {
   "property": "C91",
   "status": "partial",
   "theorems": [
    "Ditto.Glm.C91_configurations_partial",
    "Ditto.Glm.C91_shared",
    "Ditto.Glm.C91_sign_violated",
    "Ditto.Glm.C91_units_violated",
    "Ditto.Glm.C91_matrix_violated",
    "Ditto.Glm.C91_phase_violated",
    "Ditto.Glm.C91_again_violated",
    "Ditto.Glm.C91_clash_violated"
   ],
   "note": "C91_configurations_partial (first file of a process; phases A, B, C and a number for each pair of them), C91_shared. False: the numbers are per meter instead of per mile (C91_units_violated); a negative number of one part is written as 0+-2j (C91_sign_violated); lines without a number for a pair of phases, such as those with the initial empty matrix, end the writing (C91_matrix_violated), so do other phases (C91_phase_violated); lines written again get no configuration in the second file (C91_again_violated), or that of another line (C91_clash_violated)."
  },
  {
   "property": "C92",
   "status": "partial",
   "theorems": [
    "Ditto.Glm.C92_written_partial",
    "Ditto.Glm.C92_file_partial",
    "Ditto.Glm.C92_unreadable_violated",
    "Ditto.Glm.C92_open_violated",
    "Ditto.Glm.C92_underground_violated"
   ],
   "note": "C92_written_partial (each line is written as an object of its class), C92_file_partial (in the first file of a process it refers to a configuration of the file with its impedances). False: no file with a line can be read by ditto, since the brace directly after the class is taken as a part of it (C92_unreadable_violated); the position of switches and fuses is not written (C92_open_violated); switches and fuses of underground lines are written as underground lines without configuration (C92_underground_violated)."
  },
  {
   "property": "C93",
   "status": "partial",
   "theorems": [
    "Ditto.Syn.C93_loads_partial",
    "Ditto.Syn.C93_reads",
    "Ditto.Syn.C93_total_active",
    "Ditto.Syn.C93_reactive_violated",
    "Ditto.Syn.C93_lost_violated",
    "Ditto.Syn.C93_customer_violated",
    "Ditto.Syn.C93_node_violated",
    "Ditto.Syn.C93_names_violated",
    "Ditto.Syn.C93_order_violated"
   ],
   "note": "C93_loads_partial, C93_reads (when the reading succeeds), C93_total_active (no active power is lost or added). False: a load without active power is left out whatever its reactive power (C93_reactive_violated); a load in an unknown section has neither bus nor power (C93_lost_violated); a large customer named like a section becomes a load of that section (C93_customer_violated); without a line at the end of the section the whole database cannot be read (C93_node_violated); two loads of a section get the same name (C93_names_violated); the voltage depends on the order of the sections (C93_order_violated)."
  },
  {
   "property": "C94",
   "status": "partial",
   "theorems": [
    "Ditto.Syn.C94_capacitors_partial",
    "Ditto.Syn.C94_reads",
    "Ditto.Syn.C94_long_violated",
    "Ditto.Syn.C94_phase_violated",
    "Ditto.Syn.C94_mode_violated",
    "Ditto.Syn.C94_measuring_violated"
   ],
   "note": "C94_capacitors_partial (values, and the powers if the phases are A, AB or ABC), C94_reads. False: a capacitor on phase B or C alone gets the power of phase A (C94_phase_violated); more than three characters as phases, such as a neutral, make the database unreadable (C94_long_violated); the control mode is always the voltage (C94_mode_violated); the measured line has blanks where lines have underscores (C94_measuring_violated)."
  },
  {
   "property": "C95",
   "status": "partial",
   "theorems": [
    "Ditto.Syn.C95_nodes_partial",
    "Ditto.Syn.C95_nodes_read",
    "Ditto.Syn.C95_phases_violated",
    "Ditto.Syn.C95_position_violated",
    "Ditto.Syn.C95_feeder_violated",
    "Ditto.Syn.C95_sources_partial",
    "Ditto.Syn.C95_sources_read",
    "Ditto.Syn.C95_source_violated",
    "Ditto.Syn.C95_order_violated",
    "Ditto.Syn.C95_constants_violated"
   ],
   "note": "C95_sources_partial (the feeders of the table have all their values), C95_sources_read (exactly when the reading succeeds), C95_nodes_partial (names, phases at nodes whose sections have one phase each), C95_nodes_read. False: the voltages of other feeders depend on the order of a set (C95_order_violated), their impedances and connections are constants (C95_constants_violated), and without substation transformers they raise KeyError (C95_source_violated); the phases of a node are whole texts such as ABC (C95_phases_violated); X and Y are swapped (C95_position_violated); the feeder of a node is the one of the section with the same name (C95_feeder_violated)."
  },
  {
   "property": "C96",
   "status": "partial",
   "theorems": [
    "Ditto.Syn.C96_transformers_partial",
    "Ditto.Syn.C96_high_partial",
    "Ditto.Syn.C96_low_violated",
    "Ditto.Syn.C96_resistance_violated",
    "Ditto.Syn.C96_types_violated",
    "Ditto.Syn.C96_three_violated",
    "Ditto.Syn.C96_section_errors",
    "Ditto.Syn.C96_reads"
   ],
   "note": "C96_transformers_partial (ends, feeder, voltages, powers, phases; the reactance fits impedance and resistance), C96_high_partial, C96_reads, C96_section_errors. False: a transformer with a number beyond the number of types makes the database unreadable (C96_types_violated), as do three windings (C96_three_violated); the secondary connection is the one of the type with the number of the transformer (C96_low_violated); both windings get the whole resistance (C96_resistance_violated)."
  },
  {
   "property": "C97",
   "status": "partial",
   "theorems": [
    "Ditto.Syn.C97_regulators_partial",
    "Ditto.Syn.C97_reads",
    "Ditto.Syn.C97_neutral_violated",
    "Ditto.Syn.C97_blank_violated",
    "Ditto.Syn.C97_band_violated",
    "Ditto.Syn.C97_prefix_violated"
   ],
   "note": "C97_regulators_partial (resistance and reactance have the given ratio and make the impedance), C97_reads. False: a neutral becomes a phase N with windings (C97_neutral_violated), as does a blank between phases (C97_blank_violated); the band can be the one of a phase that the regulator does not have (C97_band_violated); the name of a section behind Reg is never found (C97_prefix_violated)."
  },
  {
   "property": "C98",
   "status": "partial",
   "theorems": [
    "Ditto.Syn.C98_lines_partial",
    "Ditto.Syn.C98_concentric_violated",
    "Ditto.Syn.C98_metric_violated",
    "Ditto.Syn.C98_conductor_violated",
    "Ditto.Syn.C98_fourth_violated",
    "Ditto.Syn.C98_reads"
   ],
   "note": "C98_lines_partial, C98_reads. False: the resistance of concentric neutrals is divided by 160934, a hundred times too much (C98_concentric_violated), and their sizes are taken to be inches in metric databases (C98_metric_violated); a section without conductor name (C98_conductor_violated) or with a phase as fourth letter (C98_fourth_violated) makes the database unreadable."
  },
  {
   "property": "C99",
   "status": "partial",
   "theorems": [
    "Ditto.Syn.C99_devices_partial",
    "Ditto.Syn.C99_two_violated",
    "Ditto.Syn.C99_two_fuses_violated",
    "Ditto.Syn.C99_two_switches_violated",
    "Ditto.Syn.C99_protector_violated",
    "Ditto.Syn.C99_type_errors"
   ],
   "note": "C99_devices_partial, C99_type_errors. False: a section with two reclosers, two switches or two fuses, or with a protective device of a known type, makes the database unreadable (C99_two_violated, C99_two_switches_violated, C99_two_fuses_violated, C99_protector_violated)."
  },
  {
   "property": "C100",
   "status": "partial",
   "theorems": [
    "Ditto.Syn.C100_matrices_partial",
    "Ditto.Syn.C100_sequence",
    "Ditto.Syn.C100_capacitance_violated",
    "Ditto.Syn.C100_stale_violated",
    "Ditto.Syn.C100_none_violated",
    "Ditto.Syn.C100_first_violated"
   ],
   "note": "C100_matrices_partial, C100_sequence (impedances). False: the capacitance matrix ignores the zero sequence, its rows have the sum zero (C100_capacitance_violated); a line with one letter or with an unknown conductor has no impedance matrix (C100_none_violated) and the capacitance matrix of the line before it (C100_stale_violated); if it is the first one, the database cannot be read (C100_first_violated)."
  },
  {
   "property": "C101",
   "status": "partial",
   "theorems": [
    "Ditto.Syn.C101_photovoltaics_partial",
    "Ditto.Syn.C101_dash_violated",
    "Ditto.Syn.C101_reactive_violated",
    "Ditto.Syn.C101_blank_violated",
    "Ditto.Syn.C101_substation_violated",
    "Ditto.Syn.C101_names_violated",
    "Ditto.Syn.C101_reads",
    "Ditto.Syn.C101_unknown_violated",
    "Ditto.Syn.C101_generator_violated"
   ],
   "note": "C101_photovoltaics_partial (devices have different names), C101_reads. False: blanks in names of generators become dashes (C101_dash_violated), phases with reactive power only of large customers are lost (C101_reactive_violated), blanks between phases become phases (C101_blank_violated), distributed generators have no substation (C101_substation_violated) and share their name if they are in the same section (C101_names_violated); a photovoltaic in an unknown section or at a node without line makes the database unreadable (C101_unknown_violated, C101_generator_violated)."
  },
  {
   "property": "C102",
   "status": "partial",
   "theorems": [
    "Ditto.Csv.C102_cells_partial",
    "Ditto.Csv.C102_headers",
    "Ditto.Csv.C102_reads",
    "Ditto.Csv.C102_name_violated",
    "Ditto.Csv.C102_class_violated",
    "Ditto.Csv.C102_imports_violated",
    "Ditto.Csv.C102_plain_lists_violated",
    "Ditto.Csv.C102_short_header"
   ],
   "note": "C102_cells_partial (files that are read), C102_headers (a header says one thing only), C102_reads (well-formed files are read), C102_short_header. False: names that look like numbers cannot be read (C102_name_violated); power sources, photovoltaics, storages, reactors and others are not imported and cannot be read (C102_class_violated, C102_imports_violated); lists of plain values such as phases cannot be given (C102_plain_lists_violated)."
  },
  {
   "property": "C103",
   "status": "partial",
   "theorems": [
    "Ditto.Glm.C103_transformers_partial",
    "Ditto.Glm.C103_succeeds",
    "Ditto.Glm.C103_ratings_violated",
    "Ditto.Glm.C103_numbers_violated",
    "Ditto.Glm.C103_phase_violated",
    "Ditto.Glm.C103_reactances_violated",
    "Ditto.Glm.C103_no_phases_violated",
    "Ditto.Glm.C103_series",
    "Ditto.Glm.C103_parallel"
   ],
   "note": "C103_transformers_partial, C103_series, C103_parallel, C103_succeeds. False: ratings for phases are not added, the last one counts (C103_ratings_violated); numbers for connections are not understood (C103_numbers_violated); the secondary windings of center-tapped transformers are on the phases A and B, whatever the phase of the transformer (C103_phase_violated); with the impedance of one secondary winding there are four reactances (C103_reactances_violated); center-tapped transformers without phases make the file unreadable (C103_no_phases_violated)."
  },
  {
   "property": "C104",
   "status": "partial",
   "theorems": [
    "Ditto.Glm.C104_configurations_partial",
    "Ditto.Glm.C104_shared",
    "Ditto.Glm.C104_meaning",
    "Ditto.Glm.C104_center_violated",
    "Ditto.Glm.C104_resistance_violated",
    "Ditto.Glm.C104_wye_delta_violated",
    "Ditto.Glm.C104_sides_violated",
    "Ditto.Glm.C104_again_violated",
    "Ditto.Glm.C104_written_partial",
    "Ditto.Glm.C104_unreadable_violated"
   ],
   "note": "C104_configurations_partial, C104_written_partial, C104_shared, C104_meaning. False: ditto cannot read its transformers (C104_unreadable_violated); a center-tapped transformer with its reactances ends the writing (C104_center_violated), and so does an unknown resistance (C104_resistance_violated); Y-D connections are written with a word the reader does not know (C104_wye_delta_violated); windings on the same side lose a voltage (C104_sides_violated); in later files of a process configurations are missing (C104_again_violated)."
  },
  {
   "property": "C105",
   "status": "partial",
   "theorems": [
    "Ditto.Glm.C105_regulators_partial",
    "Ditto.Glm.C105_succeeds",
    "Ditto.Glm.C105_ends_violated",
    "Ditto.Glm.C105_voltage_violated",
    "Ditto.Glm.C105_unknown_end_violated",
    "Ditto.Glm.C105_compensator_violated"
   ],
   "note": "C105_regulators_partial, C105_succeeds. False: the ends are stored under names that a regulator does not have, so that no regulator is connected (C105_ends_violated); its own nominal voltage is never looked at (C105_voltage_violated); an end that is not in the file is a KeyError (C105_unknown_end_violated); a compensator for a phase that is not listed is a NameError (C105_compensator_violated)."
  },
  {
   "property": "C106",
   "status": "partial",
   "theorems": [
    "Ditto.Glm.C106_configurations_partial",
    "Ditto.Glm.C106_shared",
    "Ditto.Glm.C106_distinct",
    "Ditto.Glm.C106_taps_violated",
    "Ditto.Glm.C106_reactance_violated",
    "Ditto.Glm.C106_meaning",
    "Ditto.Glm.C106_pt_violated",
    "Ditto.Glm.C106_none_violated",
    "Ditto.Glm.C106_again_violated",
    "Ditto.Glm.C106_written_partial",
    "Ditto.Glm.C106_parallel_violated",
    "Ditto.Glm.C106_second_violated",
    "Ditto.Glm.C106_unreadable_violated"
   ],
   "note": "C106_configurations_partial, C106_written_partial, C106_shared, C106_distinct, C106_meaning. False: the phase whose voltage is measured is written as pt_phase but read as PT_phase (C106_pt_violated); regulators with the same settings share the tap positions of the last one (C106_taps_violated); the reactance of a compensator is never written (C106_reactance_violated); an unknown tap is written as the text None (C106_none_violated); a further file repeats the configurations before and gives their names to others (C106_again_violated) and leaves out the regulators (C106_second_violated); regulators in parallel are left out (C106_parallel_violated); ditto cannot read the objects (C106_unreadable_violated)."
  },
  {
   "property": "C107",
   "status": "partial",
   "theorems": [
    "Ditto.Eph.C107_switches",
    "Ditto.Eph.C107_unnamed_violated",
    "Ditto.Eph.C107_buses_partial",
    "Ditto.Eph.C107_bus_sheet",
    "Ditto.Eph.C107_repeated_violated",
    "Ditto.Eph.C107_angles_partial",
    "Ditto.Eph.C107_angles_violated",
    "Ditto.Eph.C107_slack_violated",
    "Ditto.Eph.C107_sources_partial",
    "Ditto.Eph.C107_source_sheet",
    "Ditto.Eph.C107_impedances_violated",
    "Ditto.Eph.C107_listed_partial",
    "Ditto.Eph.C107_unlisted_violated"
   ],
   "note": "C107_switches, C107_buses_partial, C107_bus_sheet, C107_sources_partial, C107_source_sheet, C107_listed_partial. False: angles are right just if the phases of each node are in the order a, b, c (C107_angles_partial, C107_angles_violated); a node with a phase twice raises ValueError (C107_repeated_violated); a switch without a name stops the writer (C107_unnamed_violated); only nodes called sourcebus are slack buses (C107_slack_violated); impedances of sources are dropped (C107_impedances_violated); buses of other phases are in the sheet Switch, but not in the sheet Bus (C107_unlisted_violated)."
  },
  {
   "property": "C108",
   "status": "partial",
   "theorems": [
    "Ditto.Eph.C108_loads_partial",
    "Ditto.Eph.C108_written_partial",
    "Ditto.Eph.C108_sign_violated",
    "Ditto.Eph.C108_ids_violated",
    "Ditto.Eph.C108_merged_violated",
    "Ditto.Eph.C108_lost_violated",
    "Ditto.Eph.C108_overwritten_violated",
    "Ditto.Eph.C108_zip_violated",
    "Ditto.Eph.C108_phases_violated",
    "Ditto.Eph.C108_unnamed_violated"
   ],
   "note": "C108_loads_partial, C108_written_partial (loads whose names do not only differ in the letter at the end). False: of two such loads only the second one is kept (C108_merged_violated, C108_lost_violated); a new load after such a load is written over the load in the next row (C108_overwritten_violated); a power below zero gets the other sign (C108_sign_violated); IDs are not unique (C108_ids_violated); a ZIP load with a part that is zero stops the writer (C108_zip_violated), as do more than three phases (C108_phases_violated) and loads without names (C108_unnamed_violated)."
  },
  {
   "property": "C109",
   "status": "partial",
   "theorems": [
    "Ditto.Eph.C109_lines_partial",
    "Ditto.Eph.C109_line_sheet",
    "Ditto.Eph.C109_symmetric",
    "Ditto.Eph.C109_triangle_violated",
    "Ditto.Eph.C109_unnamed_violated",
    "Ditto.Eph.C109_sequences_violated",
    "Ditto.Eph.C109_length_violated",
    "Ditto.Eph.C109_listed_partial",
    "Ditto.Eph.C109_neither_violated"
   ],
   "note": "C109_lines_partial, C109_line_sheet (just when it can be written), C109_symmetric (the impedance matrix can be read back from the row), C109_listed_partial. False: numbers below the diagonal and of a fourth phase are dropped (C109_triangle_violated); lines without names have the same ID (C109_unnamed_violated); the sequence numbers are never written (C109_sequences_violated); a capacitance without a length stops the writer (C109_length_violated); a switch of which an end is missing is in no sheet (C109_neither_violated)."
  },
  {
   "property": "C110",
   "status": "partial",
   "theorems": [
    "Ditto.Eph.C110_trafos_partial",
    "Ditto.Eph.C110_written_partial",
    "Ditto.Eph.C110_count_partial",
    "Ditto.Eph.C110_merged_violated",
    "Ditto.Eph.C110_overwritten_violated",
    "Ditto.Eph.C110_again_violated",
    "Ditto.Eph.C110_third_violated",
    "Ditto.Eph.C110_reactance_violated",
    "Ditto.Eph.C110_taps_violated",
    "Ditto.Eph.C110_winding_violated",
    "Ditto.Eph.C110_unnamed_violated",
    "Ditto.Eph.C110_listed_partial"
   ],
   "note": "C110_trafos_partial, C110_written_partial, C110_count_partial, C110_listed_partial (first file of a writer, and single phase transformers with different texts of node and name). False: transformers with the same text of node and name are merged (C110_merged_violated), and transformers after them are written over others (C110_overwritten_violated); the second file of a writer has no single phase transformers, or is not written at all (C110_again_violated); third windings are dropped (C110_third_violated); the reactance stays in percent in the column X (pu) (C110_reactance_violated); the taps of the first winding are overwritten (C110_taps_violated); a transformer with one winding gets the number of phases of the one before, or stops the writer (C110_winding_violated); IDs None and constant losses (C110_unnamed_violated)."
  },
  {
   "property": "C111",
   "status": "partial",
   "theorems": [
    "Ditto.Dss.C111_series_partial",
    "Ditto.Dss.C111_first",
    "Ditto.Dss.C111_solve_partial",
    "Ditto.Dss.C111_plain",
    "Ditto.Dss.C111_loads_partial",
    "Ditto.Dss.C111_pvs_partial",
    "Ditto.Dss.C111_scaled_violated",
    "Ditto.Dss.C111_unscaled_violated",
    "Ditto.Dss.C111_memory_violated",
    "Ditto.Dss.C111_names_violated",
    "Ditto.Dss.C111_pvs_violated",
    "Ditto.Dss.C111_kvar_violated",
    "Ditto.Dss.C111_label_violated",
    "Ditto.Dss.C111_removed_violated",
    "Ditto.Dss.C111_only_violated"
   ],
   "note": "C111_series_partial, C111_first, C111_solve_partial, C111_loads_partial, C111_pvs_partial (series with label and file that are not scaled, names that can be used for folders). False: a series that is to be scaled stops the writer (C111_scaled_violated) or is silently replaced by the one that is not scaled (C111_unscaled_violated); series without file or label stop it (C111_memory_violated, C111_only_violated); without separate folders a load whose series has the name of a feeder stops it (C111_names_violated), as does a PV system with the series of another feeder (C111_pvs_violated); the file of reactive powers is written without the word qmult (C111_kvar_violated); one label for two files gives two shapes of the same name (C111_label_violated); leaving out the shapes is impossible (C111_removed_violated). Reading the files of data is a parameter (rows or an exception)."
  },
  {
   "property": "C112",
   "status": "partial",
   "theorems": [
    "Ditto.Dss.C112_voltages_partial",
    "Ditto.Dss.C112_feeder_voltages_partial",
    "Ditto.Dss.C112_low_violated",
    "Ditto.Dss.C112_masters_partial",
    "Ditto.Dss.C112_together_violated",
    "Ditto.Dss.C112_none_violated",
    "Ditto.Dss.C112_wires_violated",
    "Ditto.Dss.C112_substations_violated",
    "Ditto.Dss.C112_empty_violated",
    "Ditto.Dss.C112_overwritten_violated",
    "Ditto.Dss.C112_name_violated"
   ],
   "note": "C112_voltages_partial, C112_feeder_voltages_partial, C112_masters_partial. False: windings, PV systems and capacitors below 300 V (C112_low_violated); without separate folders any connection of a feeder stops the writer (C112_together_violated), as does one without the name of a feeder (C112_none_violated); master files of feeders do not redirect to wires, cables and geometries (C112_wires_violated); there are no master files of substations (C112_substations_violated); feeders with nothing but nodes, and feeders of an unnamed substation with the name of another substation get no circuit (C112_empty_violated, C112_name_violated); of two connections of a feeder only the last has a master file (C112_overwritten_violated)."
  },
  {
   "property": "C113",
   "status": "partial",
   "theorems": [
    "Ditto.Gld.C113_wires_partial",
    "Ditto.Gld.C113_neutral_violated",
    "Ditto.Gld.C113_insulation_violated",
    "Ditto.Gld.C113_matrix_partial",
    "Ditto.Gld.C113_length_violated",
    "Ditto.Gld.C113_one_live_violated",
    "Ditto.Gld.C113_no_neutral_violated",
    "Ditto.Gld.C113_direct_violated",
    "Ditto.Gld.C113_previous_violated"
   ],
   "note": "C113_wires_partial and C113_matrix_partial. False: the neutral gets the conductor of the second live wire (C113_neutral_violated); diameter and insulation are set at the neutral only (C113_insulation_violated); the matrix per meter depends on the length, as resistances of the whole line, radii in meters and distances in meters divided by 12 are put in Carson's equations for miles and feet (C113_matrix_partial, C113_length_violated); without neutral or with impedances that are given the reading stops (C113_no_neutral_violated, C113_direct_violated), as without second conductor for the first such line (C113_one_live_violated); a line without configuration gets the wires and the matrix of the line before (C113_previous_violated)."
  },
  {
   "property": "C114",
   "status": "partial",
   "theorems": [
    "Ditto.Gld.C114_cables_partial",
    "Ditto.Gld.C114_units_violated",
    "Ditto.Gld.C114_neutral_violated",
    "Ditto.Gld.C114_concentric_violated",
    "Ditto.Gld.C114_direct_violated",
    "Ditto.Gld.C114_previous_violated",
    "Ditto.Gld.C114_unplaced_violated",
    "Ditto.Gld.C114_single"
   ],
   "note": "C114_cables_partial (two cables, three phases, four cables) and C114_single. False: positions stay in feet (C114_units_violated); three cables of which one is a neutral get wrong distances (C114_neutral_violated); the neutrals around the conductors do not matter for the matrix (C114_concentric_violated); impedances that are given stop the reading (C114_direct_violated); without configuration the wires of the line before are converted a second time (C114_previous_violated); without spacing there are no mutual impedances (C114_unplaced_violated)."
  },
  {
   "property": "C115",
   "status": "partial",
   "theorems": [
    "Ditto.Cyme.C115_lines_partial",
    "Ditto.Cyme.C115_cables",
    "Ditto.Cyme.C115_single_violated",
    "Ditto.Cyme.C115_reactance_violated",
    "Ditto.Cyme.C115_position_violated",
    "Ditto.Cyme.C115_units_violated",
    "Ditto.Cyme.C115_load_violated",
    "Ditto.Cyme.C115_phases_violated",
    "Ditto.Cyme.C115_neutral_violated",
    "Ditto.Cyme.C115_order_violated",
    "Ditto.Cyme.C115_fuse_violated",
    "Ditto.Cyme.C115_joined",
    "Ditto.Cyme.C115_same_section_violated",
    "Ditto.Cyme.C115_errors"
   ],
   "note": "C115_lines_partial for all entries of devices, balanced and unbalanced lines, C115_joined (tables joined by section), C115_errors, C115_cables (cables named by their devices). Lines with conductors by phases: C116. False: matrices of lines of one phase (C115_single_violated, C115_reactance_violated), positions (C115_position_violated), radii stay in centimeters (C115_units_violated), closed phases of fuses and reclosers (C115_fuse_violated), sections without phases get those of the section before (C115_phases_violated), sections with `load` in a node name (C115_load_violated), neutrals that are not there (C115_neutral_violated), order of phases (C115_order_violated), a line and a device in one section (C115_same_section_violated)."
  },
  {
   "property": "C116",
   "status": "partial",
   "theorems": [
    "Ditto.Cyme.C116_lines_partial",
    "Ditto.Cyme.C116_without_partial",
    "Ditto.Cyme.C116_reduction_violated",
    "Ditto.Cyme.C116_position_violated",
    "Ditto.Cyme.C116_second_violated",
    "Ditto.Cyme.C116_default_violated",
    "Ditto.Cyme.C116_dummy_violated",
    "Ditto.Cyme.C116_errors"
   ],
   "note": "C116_lines_partial (phases A, AB or ABC with a neutral: all wires and the matrix of Carson's equations, not reduced), C116_without_partial (without a neutral: the full property), C116_errors. False: there is no reduction (C116_reduction_violated), positions go by the number of the phase and not by its letter (C116_position_violated), two neutrals (C116_second_violated), neutral NONE (C116_default_violated), no positions (C116_dummy_violated)."
  },
  {
   "property": "C117",
   "status": "partial",
   "theorems": [
    "Ditto.Cyme.C117_series_partial",
    "Ditto.Cyme.C117_regulators_violated",
    "Ditto.Cyme.C117_shared_violated",
    "Ditto.Cyme.C117_pv_violated",
    "Ditto.Cyme.C117_plain",
    "Ditto.Cyme.C117_bare",
    "Ditto.Cyme.C117_sections"
   ],
   "note": "C117_series_partial (at most one regulator: all elements in series with new different nodes), C117_plain (other sections, errors), C117_sections, C117_bare (first node without positions). False: several regulators, one for each phase, end up in a row and in loops at one node (C117_regulators_violated); nodes of two sections from one node have the same name (C117_shared_violated); photovoltaic systems are not moved (C117_pv_violated)."
  },
  {
   "property": "C118",
   "status": "partial",
   "theorems": [
    "Ditto.Cyme.C118_lines_partial",
    "Ditto.Cyme.C118_reactive_violated",
    "Ditto.Cyme.C118_end_violated",
    "Ditto.Cyme.C118_resistance_violated",
    "Ditto.Cyme.C118_nameclass_violated",
    "Ditto.Cyme.C118_all",
    "Ditto.Cyme.C118_errors"
   ],
   "note": "C118_lines_partial (line, impedances, length and loads), C118_all (all entries), C118_errors. False: loads without reactive power or with negative reactive power at the beginning are lost (C118_reactive_violated); whether there is a load at the end depends on the reactive power at the beginning (C118_end_violated); phases without a resistance are lost with their loads (C118_resistance_violated); the class of the line is the equipment of a regulator of the section (C118_nameclass_violated)."
  },
  {
   "property": "C119",
   "status": "partial",
   "theorems": [
    "Ditto.Cyme.C119_dg_partial",
    "Ditto.Cyme.C119_curve_violated",
    "Ditto.Cyme.C119_storage_violated",
    "Ditto.Cyme.C119_shared_violated",
    "Ditto.Cyme.C119_generation_violated",
    "Ditto.Cyme.C119_errors",
    "Ditto.Cyme.C119_duplicate_violated"
   ],
   "note": "C119_dg_partial (both kinds of objects with their attributes: the last readable number of the rows of a device decides), C119_errors. False: curves are always the default ones (C119_curve_violated); the reserve is the maximum state of charge and a code of phases is one phase of this name (C119_storage_violated); a storage with the number of a photovoltaic system has no ratings (C119_shared_violated); a generation model of anything but a photovoltaic system stops the reader with a KeyError (C119_generation_violated); a second photovoltaic system or storage of a section stops it with a ValueError (C119_duplicate_violated)."
  },
  {
   "property": "C120",
   "status": "partial",
   "theorems": [
    "Ditto.Cyme.C120_sections_partial",
    "Ditto.Cyme.C120_substation",
    "Ditto.Cyme.C120_parallel_violated",
    "Ditto.Cyme.C120_network_violated",
    "Ditto.Cyme.C120_unnamed_violated",
    "Ditto.Cyme.C120_open_violated",
    "Ditto.Cyme.C120_substation_violated",
    "Ditto.Cyme.C120_feeders_violated",
    "Ditto.Cyme.C120_table",
    "Ditto.Cyme.C120_errors"
   ],
   "note": "C120_sections_partial (names with the smallest number of stars, distinct for each feeder; rows of the networks and tables; points), C120_substation, C120_table, C120_errors. Missing: the columns for the equipment. False: parallel lines with names of more than 64 characters share a section (C120_parallel_violated); a line without a feeder or substation gets into the network of the object before (C120_network_violated, C120_unnamed_violated); sections of two feeders may have the same name (C120_feeders_violated); switches with an unknown state are written as open (C120_open_violated); names of substations with \"ation_\" are cut (C120_substation_violated)."
  },
  {
   "property": "C121",
   "status": "partial",
   "theorems": [
    "Ditto.Cyme.C121_devices_partial",
    "Ditto.Cyme.C121_device_violated",
    "Ditto.Cyme.C121_errors",
    "Ditto.Cyme.C121_conductors_partial",
    "Ditto.Cyme.C121_default_violated",
    "Ditto.Cyme.C121_conductor_violated",
    "Ditto.Cyme.C121_wire_violated",
    "Ditto.Cyme.C121_neutral_violated",
    "Ditto.Cyme.C121_cables_partial",
    "Ditto.Cyme.C121_cable_violated",
    "Ditto.Cyme.C121_renamed_violated",
    "Ditto.Cyme.C121_overheads_partial",
    "Ditto.Cyme.C121_first_violated",
    "Ditto.Cyme.C121_columns_violated",
    "Ditto.Cyme.C121_last"
   ],
   "note": "C121_devices_partial, C121_conductors_partial, C121_cables_partial, C121_overheads_partial: if things with the same name have the same data and all have names (for devices also without names), C121_errors. False: unnamed conductors are referred to by a number (C121_conductor_violated), unnamed cables never by their identifier (C121_cable_violated), the first unnamed overhead line by \"line_1\" instead of \"1\" (C121_first_violated, all others are right); with the same name and different data lines get foreign data (C121_device_violated, C121_wire_violated, C121_renamed_violated); data that two names have give two columns (C121_columns_violated); \"N1\" without \"N2\" is lost beside \"N\" (C121_neutral_violated); a conductor called DEFAULT has other data (C121_default_violated). C121_last: an unnamed wire takes the last code with its data."
  },
  {
   "property": "C122",
   "status": "partial",
   "theorems": [
    "Ditto.Cyme.C122_overhead_partial",
    "Ditto.Cyme.C122_self",
    "Ditto.Cyme.C122_order_violated",
    "Ditto.Cyme.C122_shunt_violated",
    "Ditto.Cyme.C122_errors",
    "Ditto.Cyme.C122_size",
    "Ditto.Cyme.C122_stops",
    "Ditto.Cyme.C122_cable_partial",
    "Ditto.Cyme.C122_cable_plain",
    "Ditto.Cyme.C122_kind",
    "Ditto.Cyme.C122_cable_errors",
    "Ditto.Cyme.C122_unbalanced_violated",
    "Ditto.Cyme.C122_small_violated"
   ],
   "note": "C122_overhead_partial: all 21 numbers for the order ABC, with and without capacitances; C122_self: phases in any order; C122_cable_partial, C122_cable_plain, C122_kind: balanced cables of any number of phases; C122_errors, C122_stops, C122_size, C122_cable_errors. False: susceptances of phases are always zero (C122_shunt_violated), mutual impedances are zero if B comes before A or C before B (C122_order_violated), other than balanced cables get the data of the last phases (C122_unbalanced_violated), a smaller capacitance matrix of a cable stops the writer (C122_small_violated). Geometry, conductors and constants of the rows are not modelled; equipment identifiers are C121."
  },
  {
   "property": "C123",
   "status": "partial",
   "theorems": [
    "Ditto.Cyme.C123_rows",
    "Ditto.Cyme.C123_sources_partial",
    "Ditto.Cyme.C123_stale_violated",
    "Ditto.Cyme.C123_first_violated",
    "Ditto.Cyme.C123_loose_violated",
    "Ditto.Cyme.C123_loose_alone",
    "Ditto.Cyme.C123_same_violated",
    "Ditto.Cyme.C123_voltage_violated",
    "Ditto.Cyme.C123_heads",
    "Ditto.Cyme.C123_head_errors",
    "Ditto.Cyme.C123_feeders_partial",
    "Ditto.Cyme.C123_twice_violated",
    "Ditto.Cyme.C123_none_violated",
    "Ditto.Cyme.C123_head_voltage"
   ],
   "note": "C123_rows: the rows of source equivalents; C123_sources_partial: rows of sources and of the equipment file if every source is at the head node of a feeder; C123_heads, C123_feeders_partial, C123_head_voltage: feeders with voltage and head node; C123_head_errors, C123_loose_alone. False: a source that is not at a head node gets the node and feeder of the source before it (C123_stale_violated) or stops the writer (C123_first_violated); a source that is connected to nothing stops it too (C123_loose_violated); two sources at one node have the same identifier (C123_same_violated); a source with the voltage of its node has no operating voltages (C123_voltage_violated); two feeders with one head node give two equivalents (C123_twice_violated); missing data of a feeder are written as None (C123_none_violated). Texts of numbers are not modelled."
  },
  {
   "property": "C124",
   "status": "partial",
   "theorems": [
    "Ditto.Cyme.C124_back_partial",
    "Ditto.Cyme.C124_connectors",
    "Ditto.Cyme.C124_size",
    "Ditto.Cyme.C124_empty_violated",
    "Ditto.Cyme.C124_order_violated",
    "Ditto.Cyme.C124_shared_violated"
   ],
   "note": "C124_back_partial: nodes with distinct names and readable numbers come back with names and positions, those with at most one position first; C124_connectors: the section of each connector; C124_size: number of rows. False: a node without positions comes back at the origin (C124_empty_violated); nodes change their order (C124_order_violated); of two elements connected at one index the first has no connector (C124_shared_violated). Missing: voltages of nodes are not written; the sections of connectors are the plain names of the ends, also for dropped elements and for lines whose section was renamed since another one has these ends."
  },
  {
   "property": "C125",
   "status": "partial",
   "theorems": [
    "Ditto.Cyme.C125_converter_partial",
    "Ditto.Cyme.C125_minimum_violated",
    "Ditto.Cyme.C125_generation_violated",
    "Ditto.Cyme.C125_control_partial",
    "Ditto.Cyme.C125_no_control",
    "Ditto.Cyme.C125_powerfactor_violated",
    "Ditto.Cyme.C125_curve_violated",
    "Ditto.Cyme.C125_codes_violated",
    "Ditto.Cyme.C125_pvs_partial",
    "Ditto.Cyme.C125_storages_partial",
    "Ditto.Cyme.C125_shared",
    "Ditto.Cyme.C125_first_violated",
    "Ditto.Cyme.C125_stale_violated",
    "Ditto.Cyme.C125_loose_violated",
    "Ditto.Cyme.C125_phase_violated",
    "Ditto.Cyme.C125_letters",
    "Ditto.Cyme.C125_setting",
    "Ditto.Cyme.C125_energy_violated",
    "Ditto.Cyme.C125_charge"
   ],
   "note": "C125_converter_partial, C125_control_partial, C125_no_control, C125_setting, C125_letters, C125_charge: the rows; C125_pvs_partial, C125_storages_partial: rows of all objects if the writer does not stop; C125_shared: codes of storages. False: a storage with no photovoltaic system before it stops the writer (C125_first_violated); so do controls by power factor or by a watt curve, whose attributes have other names in the class (C125_powerfactor_violated, C125_curve_violated), a minimum of the power factor (C125_minimum_violated), phases that are plain texts and systems without names (C125_phase_violated); rows of generation models lack a comma (C125_generation_violated); energies are divided by 1000 (C125_energy_violated); the reader's name for fixed reactive power is not known to the writer (C125_codes_violated); objects without feeder (C125_stale_violated, C125_loose_violated)."
  },
  {
   "property": "C126",
   "status": "partial",
   "theorems": [
    "Ditto.Cyme.C126_position",
    "Ditto.Cyme.C126_rows_partial",
    "Ditto.Cyme.C126_none",
    "Ditto.Cyme.C126_back_partial",
    "Ditto.Cyme.C126_name_violated",
    "Ditto.Cyme.C126_feeder_violated",
    "Ditto.Cyme.C126_dropped_violated"
   ],
   "note": "C126_position: where a substation is placed, in all four cases; C126_rows_partial, C126_none: the rows of both tables; C126_back_partial: the reader marks the nodes that were written. False: substations whose names contain ation_ are written with a part of the name and without connections (C126_name_violated); feeders whose names contain substation stop the writer (C126_feeder_violated); dropped nodes are written as connections (C126_dropped_violated)."
  },
  {
   "property": "C127",
   "status": "partial",
   "theorems": [
    "Ditto.TrafoFix.C127_oriented_partial",
    "Ditto.TrafoFix.C127_others",
    "Ditto.TrafoFix.C127_phase_partial",
    "Ditto.TrafoFix.C127_direct_violated",
    "Ditto.TrafoFix.C127_stale_violated",
    "Ditto.TrafoFix.C127_several_violated"
   ],
   "note": "C127_oriented_partial: direction after all loads, in any order; C127_phase_partial: phases of transformers with one phase, if the lines above have a common phase; C127_others: other transformers are not changed. False: a transformer whose load is connected to it without a line is never rotated (C127_direct_violated); the variable with the phases is read before they are set, so a transformer that has the phase of its line can get that of a line further above (C127_stale_violated); transformers with several phases are never adjusted (C127_several_violated)."
  },
  {
   "property": "C128",
   "status": "partial",
   "theorems": [
    "Ditto.NodeVolt.C128_secondary_partial",
    "Ditto.NodeVolt.C128_only",
    "Ditto.NodeVolt.C128_island_violated",
    "Ditto.NodeVolt.C128_head_violated",
    "Ditto.NodeVolt.C128_erased_violated",
    "Ditto.NodeVolt.C128_unnamed_violated"
   ],
   "note": "C128_secondary_partial: the voltages if all nodes are connected and there is equipment on every edge above them; C128_only: names and number of nodes are kept and no other voltages are written, also if there is an exception. False: a node that is not connected (C128_island_violated) or that is between the power source and the first transformer (C128_head_violated) ends the function with an exception, and the nodes after it get no voltage; a winding without voltage erases that of the nodes (C128_erased_violated); a transformer without name gives its voltage to nodes without transformer above (C128_unnamed_violated)."
  },
  {
   "property": "C129",
   "status": "partial",
   "theorems": [
    "Ditto.NetAttrs.C129_edge_other",
    "Ditto.NetAttrs.C129_edge",
    "Ditto.NetAttrs.C129_node_other",
    "Ditto.NetAttrs.C129_node",
    "Ditto.NetAttrs.C129_class",
    "Ditto.NetAttrs.C129_mixed_violated",
    "Ditto.NetAttrs.C129_source_violated"
   ],
   "note": "C129_edge, C129_edge_other, C129_node, C129_node_other, C129_class: which value every attribute of every edge and node has after the loop, for any order of objects. False: an edge with two parallel objects has a mixture of their attributes (C129_mixed_violated), and a device at the end of an edge that is directed away from it, as that of the power source, gives none (C129_source_violated). Missing: the undirected graph."
  },
  {
   "property": "C130",
   "status": "partial",
   "theorems": [
    "Ditto.PathLines.C130_lines",
    "Ditto.PathLines.C130_reverse_partial",
    "Ditto.PathLines.C130_reverse_violated",
    "Ditto.PathLines.C130_impedances_partial",
    "Ditto.PathLines.C130_missing_violated"
   ],
   "note": "C130_lines: the list of lines for every path; C130_reverse_partial: the way back without parallel lines; C130_impedances_partial: impedances if all lines have matrices. False: with parallel lines other ones are listed for the way back, and only the last of those in the same direction is known (C130_reverse_violated); a line without impedance matrix is left out of the list of impedances, as if it had none (C130_missing_violated). Missing: shortest paths and the positive sequence, which are given."
  },
  {
   "property": "C131",
   "status": "partial",
   "theorems": [
    "Ditto.Furthest.C131_largest",
    "Ditto.Furthest.C131_clever_partial",
    "Ditto.Furthest.C131_clever_le",
    "Ditto.Furthest.C131_island_violated",
    "Ditto.Furthest.C131_loop_violated"
   ],
   "note": "C131_largest: the largest distance if all nodes are connected; C131_clever_partial: both agree on trees with lengths that are not negative; C131_clever_le: the faster way never gives more. False: a node that is not connected ends the first one with an exception (C131_island_violated); with loops the faster one gives another result or an exception (C131_loop_violated). Missing: shortest paths (networkx), which are given as distances, and networks of single feeders."
  },
  {
   "property": "C132",
   "status": "partial",
   "theorems": [
    "Ditto.Metrics.C132_lengths_partial",
    "Ditto.Metrics.C132_sum_partial",
    "Ditto.Metrics.C132_rejects",
    "Ditto.Metrics.C132_loads",
    "Ditto.Metrics.C132_voltage_violated",
    "Ditto.Metrics.C132_two_violated"
   ],
   "note": "C132_lengths_partial: the lengths if voltages and lengths of all lines are known; C132_sum_partial: they sum up if every line has one to three wires on phases; C132_loads: numbers of loads; C132_rejects: other numbers of phases. False: one line without voltage gives an exception (C132_voltage_violated); loads with two phases are counted by none of the functions, and two wires on one phase are taken for two phases (C132_two_violated). Missing: arguments that are not integers."
  }
 ]
}