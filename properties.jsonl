{"id": "C01", "title": "Length conversion round trip", "statement": "Converting a length to meters with convert_to_meters and back with convert_from_meters (reader's or writer's copy) in the same supported unit returns the original length up to a relative error of 3e-6, exactly for m, km and cm; the two tables never disagree by more than that.", "quantifier": "every rational length, every supported unit (mi, km, kft, m, ft, in, cm) in any letter case, both the reader and writer helper", "why_tests_cant": "a test checks a handful of literal lengths; the claim is about every length and every unit, and about an error bound that must hold uniformly", "anchors": ["ditto/readers/abstract_reader.py:AbstractReader.convert_to_meters", "ditto/readers/abstract_reader.py:AbstractReader.convert_from_meters", "ditto/writers/abstract_writer.py:AbstractWriter.convert_from_meters"]}
{"id": "C02", "title": "Per-length quantities are converted inversely to lengths", "statement": "With inverse=True the conversions act on ohms-per-length such that (length in meters) x (quantity per meter) equals (length in unit) x (quantity per unit): total line impedance is independent of the unit in which a line was described.", "quantifier": "every length, every per-length quantity, every supported unit, to meters and from meters", "why_tests_cant": "the invariant is an algebraic law over all pairs of numbers and all units", "anchors": ["ditto/readers/abstract_reader.py:AbstractReader.convert_to_meters", "ditto/readers/abstract_reader.py:AbstractReader.convert_from_meters"]}
{"id": "C03", "title": "Unsupported units never yield a number", "statement": "convert_to_meters / convert_from_meters return None exactly when the quantity or unit is None or the unit (compared case-insensitively) is not one of the seven supported units; unit_conversion is the composition of the two but is defined only for lower-case unit names.", "quantifier": "every unit string, every optional quantity", "why_tests_cant": "the space of unit strings is infinite", "anchors": ["ditto/readers/abstract_reader.py:AbstractReader.convert_to_meters", "ditto/readers/abstract_reader.py:AbstractReader.convert_from_meters", "ditto/readers/abstract_reader.py:AbstractReader.unit_conversion"]}
{"id": "C04", "title": "symmetrize builds the symmetric completion of a triangular matrix", "statement": "For a lower-triangular list of rows symmetrize returns a symmetric square matrix whose lower triangle is the input; it returns None exactly when the number of rows differs from the longest row and raises on the empty matrix. It is not idempotent: a full symmetric matrix has its off-diagonal entries doubled.", "quantifier": "every ragged list-of-rows matrix of any size", "why_tests_cant": "matrix size and contents are unbounded", "anchors": ["ditto/readers/abstract_reader.py:AbstractReader.symmetrize"]}
{"id": "C05", "title": "Kron reduction eliminates exactly the neutral conductors", "statement": "kron_reduction(Z, neutrals) returns Zpp - Zpn Znn^-1 Znp for every choice of neutral indices.", "quantifier": "every primitive impedance matrix of any size and every list of distinct neutral indices", "why_tests_cant": "dimension and index choices are unbounded; the tests only exercise one 3-wire case", "anchors": ["ditto/readers/abstract_reader.py:AbstractReader.kron_reduction"]}
{"id": "C06", "title": "Sequence transformation is a similarity", "statement": "get_sequence_impedance_matrix of a 3x3 matrix is A^-1 Z A: the trace is preserved, a balanced matrix (self s, mutual m) becomes diag(s+2m, s-m, s-m), and zero/positive/negative accessors return these; 2x2 likewise; any other shape gives an empty result on which the accessors raise ValueError.", "quantifier": "every 3x3 / 2x2 complex matrix and every other shape", "why_tests_cant": "a law over all complex matrices", "anchors": ["ditto/readers/abstract_reader.py:AbstractReader.get_sequence_impedance_matrix", "ditto/readers/abstract_reader.py:AbstractReader.get_zero_sequence_impedance", "ditto/readers/abstract_reader.py:AbstractReader.get_positive_sequence_impedance", "ditto/readers/abstract_reader.py:AbstractReader.get_negative_sequence_impedance"]}
{"id": "C07", "title": "Name index returns the last object created with a name", "statement": "After Store.set_names, looking up a name returns the last object in the store carrying that name; a name no object carries raises KeyError; every named object is retrievable by its name iff names are pairwise distinct.", "quantifier": "every history of object creations, renamings, removals and set_names calls", "why_tests_cant": "depends on arbitrary histories of the store", "anchors": ["ditto/store.py:Store.set_names", "ditto/store.py:Store.__getitem__", "ditto/models/base.py:DiTToHasTraits.set_name"]}
{"id": "C08", "title": "Store holds exactly the created and not removed objects, in creation order", "statement": "For every sequence of object creations and removals, models lists exactly the objects created and not removed, in creation order and without duplicates; removing an object not in the store raises ValueError and changes nothing; iter_models(T) is the subsequence of instances of T.", "quantifier": "every finite history of creations and removals", "why_tests_cant": "history quantifier", "anchors": ["ditto/store.py:Store.models", "ditto/store.py:Store.iter_models", "ditto/store.py:Store.remove_element", "ditto/models/base.py:DiTToHasTraits.__init__"]}
{"id": "C09", "title": "delete_element removes an object and exactly its sub-objects", "statement": "Modifier.delete_element(model, obj) removes from the store obj and all objects reachable through its object lists (wires, windings, phase_windings, phase_loads, positions ...), and nothing else; the order of the survivors and all attributes are unchanged.", "quantifier": "every store, every object forest of any width and depth", "why_tests_cant": "unbounded object trees", "anchors": ["ditto/modify/modify.py:Modifier.delete_element"]}
{"id": "C10", "title": "delete removes every object named by the second model", "statement": "After Modifier.delete(model_1, model_2) no object of model_1 has a name occurring in model_2, and objects whose name does not occur in model_2 (and that are not sub-objects of a deleted one) are untouched.", "quantifier": "every pair of models", "why_tests_cant": "quantifies over all pairs of models, including duplicated names", "anchors": ["ditto/modify/modify.py:Modifier.delete"]}
{"id": "C11", "title": "copy/add makes faithful and independent copies", "statement": "Modifier.add(model_1, model_2) appends to model_1 a deep copy of every named object of model_2 and changes neither model_2 nor the existing objects of model_1; the copied object has the same attribute values and structurally equal sub-objects, all freshly created.", "quantifier": "every pair of models, every object forest", "why_tests_cant": "unbounded structures and aliasing", "anchors": ["ditto/modify/modify.py:Modifier.copy", "ditto/modify/modify.py:Modifier.add"]}
{"id": "C12", "title": "merge(overwrite=True) takes every set attribute of the second model", "statement": "After merge(model_1, model_2, overwrite=True), for every name in both models, each scalar attribute of the object in model_1 equals the value in model_2 if that is not None and is unchanged otherwise.", "quantifier": "every pair of models and every attribute", "why_tests_cant": "all pairs of models", "anchors": ["ditto/modify/modify.py:Modifier.merge", "ditto/modify/modify.py:Modifier.set_attributes"]}
{"id": "C13", "title": "merge(overwrite=False) never destroys data", "statement": "With overwrite=False no attribute of model_1 that is not None changes its value, and every None attribute of a matched object is filled from model_2.", "quantifier": "every pair of models, every attribute, at every nesting depth", "why_tests_cant": "all pairs of models", "anchors": ["ditto/modify/modify.py:Modifier.merge", "ditto/modify/modify.py:Modifier.set_attributes"]}
{"id": "C14", "title": "merge keeps every phase of the second model", "statement": "When two same-named objects carry phase-tagged sub-objects (wires, phase_loads, phase_windings ...), after merge the object of model_1 has a sub-object for every phase present in either model.", "quantifier": "every pair of lists of phase-tagged sub-objects", "why_tests_cant": "all combinations and orders of phases", "anchors": ["ditto/modify/modify.py:Modifier.set_attributes"]}
{"id": "C15", "title": "The network graph contains exactly the declared connections", "statement": "Network.build creates an undirected graph whose edges are exactly the pairs {from_element,to_element} of two-terminal objects and {connecting_element,name} of one-terminal objects, and whose nodes are exactly their endpoints.", "quantifier": "every model", "why_tests_cant": "all models", "anchors": ["ditto/network/network.py:Network.build"]}
{"id": "C16", "title": "The directed network is a spanning arborescence of the source's component", "statement": "After build(model, source) every node connected to the source other than the source has exactly one predecessor, the source has none, unconnected nodes do not occur, following predecessors always reaches the source, and every directed edge is an edge of the graph. A source absent from the graph raises KeyError.", "quantifier": "every model (any graph, with loops and islands) and every source", "why_tests_cant": "graph size/shape unbounded", "anchors": ["ditto/network/network.py:Network.build", "ditto/network/network.py:Network.bfs_order", "ditto/network/network.py:Network.rebuild_digraph"]}
{"id": "C17", "title": "direct_from_source orients two-terminal objects away from the source without changing connectivity", "statement": "direct_from_source only ever swaps from_element and to_element; the undirected graph is unchanged; afterwards no object is directed against the breadth-first tree; a second call changes nothing.", "quantifier": "every model and source", "why_tests_cant": "all models, idempotence is a two-run property", "anchors": ["ditto/store.py:Store.direct_from_source", "ditto/network/network.py:Network.bfs_order"]}
{"id": "C18", "title": "get_upstream_transformer returns the nearest transformer on the path to the source", "statement": "For every node of the directed network the upstream walk terminates and returns the name of the transformer on the edge nearest to the node on its unique path from the source, or None if that path has no transformer.", "quantifier": "every model, source and node", "why_tests_cant": "paths of any length, termination", "anchors": ["ditto/network/network.py:Network.get_upstream_transformer"]}
{"id": "C19", "title": "remove_open_switches removes exactly the open switches and breakers", "statement": "After remove_open_switches an edge of the graph is missing iff it belongs to a switch or breaker all of whose wires are open.", "quantifier": "every model, all flag combinations", "why_tests_cant": "all combinations of tri-state flags and wire lists", "anchors": ["ditto/network/network.py:Network.remove_open_switches"]}
{"id": "C20", "title": "get_all_elements_downstream returns exactly what is fed through a node", "statement": "get_all_elements_downstream(model, node) returns the objects named by the nodes in the subtree of the directed network below node together with the equipment on the edges of that subtree.", "quantifier": "every model, source and node", "why_tests_cant": "subtrees of any size", "anchors": ["ditto/network/network.py:Network.get_all_elements_downstream"]}
{"id": "C21", "title": "find_internal_edges returns exactly the equipment inside a node set", "statement": "find_internal_edges(S) is the set of equipment names on edges with both ends in S.", "quantifier": "every graph and every node set", "why_tests_cant": "all node sets", "anchors": ["ditto/network/network.py:Network.find_internal_edges", "ditto/store.py:Store.get_internal_edges"]}
{"id": "C22", "title": "delete_cycles makes the network radial", "statement": "After Store.delete_cycles the network has no loops.", "quantifier": "every model", "why_tests_cant": "all looped topologies", "anchors": ["ditto/store.py:Store.delete_cycles", "ditto/network/network.py:Network.find_cycles"]}
{"id": "C23", "title": "delete_disconnected_nodes deletes exactly the nodes without connection", "statement": "delete_disconnected_nodes removes precisely the Node objects that no other object connects to (and the unnamed ones), with their positions; every other object survives.", "quantifier": "every model", "why_tests_cant": "all models", "anchors": ["ditto/store.py:Store.delete_disconnected_nodes"]}
{"id": "C24", "title": "check_loads_connected answers whether each load is fed by exactly one source", "statement": "check_loads_connected returns True iff there is a power source and every load is reachable, through closed devices, from exactly one source.", "quantifier": "every model", "why_tests_cant": "reachability in arbitrary graphs", "anchors": ["ditto/consistency/check_loads_connected.py:check_loads_connected"]}
{"id": "C25", "title": "check_loops answers whether the network is radial", "statement": "check_loops returns True iff the network contains no loop.", "quantifier": "every model", "why_tests_cant": "all topologies", "anchors": ["ditto/consistency/check_loops.py:check_loops"]}
{"id": "C26", "title": "check_matched_phases accepts exactly consistent transformers", "statement": "check_matched_phases returns True iff every two-winding transformer has low-side phases contained in its high-side phases and every center-tap transformer has identical low windings with two phases and at most two high phases.", "quantifier": "every model, every phase list", "why_tests_cant": "all phase lists", "anchors": ["ditto/consistency/check_matched_phases.py:check_matched_phases"]}
{"id": "C27", "title": "check_unique_path answers whether each load has a unique path", "statement": "check_unique_path returns True iff there is a source and each load has exactly one simple path to exactly one source.", "quantifier": "every model", "why_tests_cant": "all topologies", "anchors": ["ditto/consistency/check_unique_path.py:check_unique_path"]}
{"id": "C28", "title": "fix_undersized_transformers upsizes minimally and only undersized transformers", "statement": "A transformer whose rating covers its downstream load is unchanged; an undersized one gets on all windings the smallest catalogue size strictly above the load, or is unchanged if the catalogue has none; the rating never decreases.", "quantifier": "every transformer, winding list and load total", "why_tests_cant": "numeric range is unbounded", "anchors": ["ditto/consistency/fix_undersized_transformers.py:fix_undersized_transformers"]}
{"id": "C29", "title": "check_transformer_phase_path decides per-path phase consistency", "statement": "check_transformer_phase_path returns False whenever some path to a load carries more than one transformer, lacks a needed one, or has phases that are not those of the upstream element.", "quantifier": "every model and path", "why_tests_cant": "all paths", "anchors": ["ditto/consistency/check_transformer_phase_path.py:check_transformer_phase_path", "ditto/consistency/fix_transformer_phase_path.py:fix_transformer_phase_path"]}
{"id": "C30", "title": "JSON round trip preserves the model", "statement": "Reading back a model written by the JSON writer yields the same objects with the same attribute values.", "quantifier": "every model", "why_tests_cant": "all models and attribute types", "anchors": ["ditto/writers/json/write.py:Writer.write", "ditto/readers/json/read.py:Reader.parse"]}
{"id": "C31", "title": "Missing coordinates are filled by interpolation and the fill terminates", "statement": "set_missing_coords_recur terminates on every network; nodes that had coordinates keep them; a node whose connected component contains a located node ends up with coordinates, each the average of neighbours at the time it is set.", "quantifier": "every graph and every assignment of coordinates", "why_tests_cant": "termination and fixpoint over arbitrary graphs", "anchors": ["ditto/modify/system_structure.py:system_structure_modifier.set_missing_coords_recur"]}
{"id": "C32", "title": "Nominal voltage propagates from the source through transformers", "statement": "After set_nominal_voltages_recur each node reached from the source has the low voltage of the nearest transformer above it, or the source voltage if there is none.", "quantifier": "every directed network", "why_tests_cant": "trees of any depth", "anchors": ["ditto/modify/system_structure.py:system_structure_modifier.set_nominal_voltages_recur", "ditto/modify/system_structure.py:system_structure_modifier.set_nominal_voltages_recur_line"]}
{"id": "C33", "title": "feeder_preprocessing assigns every object to at most one feeder", "statement": "feeder_preprocessing never overwrites a substation or feeder name set for another feeder: either every object downstream of a feeder head gets that feeder or ValueError is raised.", "quantifier": "every network and set of substation transformers", "why_tests_cant": "all topologies", "anchors": ["ditto/modify/system_structure.py:system_structure_modifier.feeder_preprocessing"]}
{"id": "C34", "title": "Center-tap preprocessing conserves the power of each load", "statement": "center_tap_load_preprocessing leaves the total active and reactive power over the non-dropped phase loads of each load equal to the total before.", "quantifier": "every load and phase list, any number of runs", "why_tests_cant": "real arithmetic over arbitrary lists; repeated runs", "anchors": ["ditto/modify/system_structure.py:system_structure_modifier.center_tap_load_preprocessing"]}
{"id": "C35", "title": "System source selection is unambiguous", "statement": "Building a structure modifier, a network analyzer or reading metrics without an explicit source succeeds iff exactly one distinct sourcebus name exists, and then uses that one.", "quantifier": "every model", "why_tests_cant": "all models", "anchors": ["ditto/modify/system_structure.py:system_structure_modifier.__init__", "ditto/metrics/network_analysis.py:NetworkAnalyzer.__init__"]}
{"id": "C36", "title": "Length metrics add up", "statement": "compute_all_metrics reports LV (MV) length equal to the total length of LV (MV) lines; the 1/2/3-phase lengths partition it when every line has one to three phases; overhead lengths never exceed them; no line is counted twice.", "quantifier": "every model", "why_tests_cant": "sums over arbitrary lists of lines", "anchors": ["ditto/metrics/network_analysis.py:NetworkAnalyzer.analyze_object", "ditto/metrics/network_analysis.py:NetworkAnalyzer.compute_all_metrics"]}
{"id": "C37", "title": "Load metrics add up", "statement": "sum_load_kw equals the total p of non-dropped phase loads in kW, equals the sum of the per-phase totals when all phases are A, B, C, and the per-phase LV percentages sum to 100 when LV demand is not zero.", "quantifier": "every model", "why_tests_cant": "sums over arbitrary lists of loads", "anchors": ["ditto/metrics/network_analysis.py:NetworkAnalyzer.analyze_object", "ditto/metrics/network_analysis.py:NetworkAnalyzer.compute_all_metrics", "ditto/metrics/network_analysis.py:NetworkAnalyzer.total_demand"]}
{"id": "C38", "title": "Each load is mapped to at most one transformer, the nearest upstream one", "statement": "get_transformer_load_mapping terminates and lists each load under exactly the nearest transformer on its path to the source, in load order, and nowhere else.", "quantifier": "every model and source", "why_tests_cant": "paths of any length", "anchors": ["ditto/metrics/network_analysis.py:NetworkAnalyzer.get_transformer_load_mapping"]}
{"id": "C39", "title": "Splitting into feeders terminates with connected feeders", "statement": "split_network_into_feeders terminates, each feeder network is connected and contains all the nodes given for the feeder, and nodes are only ever added.", "quantifier": "every connected network and list of feeder node lists", "why_tests_cant": "loop termination for arbitrary graphs", "anchors": ["ditto/metrics/network_analysis.py:NetworkAnalyzer.split_network_into_feeders", "ditto/metrics/network_analysis.py:NetworkAnalyzer.connect_disconnected_components"]}
{"id": "C40", "title": "Objects get the feeder of the nearest tagged node", "statement": "tag_objects gives every object the feeder of its own node when mapped, otherwise that of the nearest mapped predecessor, otherwise leaves it unchanged, and terminates.", "quantifier": "every network and node-feeder mapping", "why_tests_cant": "walks of any length", "anchors": ["ditto/metrics/network_analysis.py:NetworkAnalyzer.tag_objects", "ditto/metrics/network_analysis.py:NetworkAnalyzer.get_feeder"]}
{"id": "C41", "title": "Conversion pipeline dispatch", "statement": "The CLI converts iff both formats are registered, reads the whole input before anything is written, and an unknown format is reported before any reader is constructed.", "quantifier": "every pair of format names and registries", "why_tests_cant": "all registries", "anchors": ["ditto/cli.py:convert", "ditto/converter.py:Converter.convert"]}
{"id": "C42", "title": "Default values are applied only where asked", "statement": "Applying default values assigns each listed attribute on every object of the listed class, and with the remove flag clears them; attributes and classes not listed are untouched; applying twice equals applying once.", "quantifier": "every model and default-value dictionary", "why_tests_cant": "all models and dictionaries", "anchors": ["ditto/readers/abstract_reader.py:AbstractReader.set_default_values", "ditto/readers/abstract_reader.py:AbstractReader.parse_default_values"]}
{"id": "C43", "title": "Synergi lengths are converted by the physical ratio of the units", "statement": "convert_length_unit multiplies by the ratio of the physical sizes of the two units, for all supported unit names in the letter case of the table; unknown unit names are rejected with ValueError and never silently treated as another unit.", "quantifier": "every length, every pair of unit names", "why_tests_cant": "the table has n^2 entries and the claim ranges over all lengths and all strings", "anchors": ["ditto/readers/synergi/length_units.py:convert_length_unit"]}
{"id": "C44", "title": "merge leaves objects without a partner untouched", "statement": "After merge(model_1, model_2), an object of model_1 whose name does not occur in model_2, and everything only it owns, is exactly as before.", "quantifier": "every pair of models with distinct objects", "why_tests_cant": "all pairs of models; the merge recurses into lists of lists", "anchors": ["ditto/modify/modify.py:Modifier.merge", "ditto/modify/modify.py:Modifier.set_attributes"]}
{"id": "C45", "title": "set_nominal_voltages gives every node the voltage of the nearest transformer above it", "statement": "After set_nominal_voltages every node below a transformer has the lowest voltage of the windings of the nearest transformer on its path from the source, nodes above the first transformer keep their voltage, and lines take the voltage of their from element.", "quantifier": "every radial network and any placement of transformers", "why_tests_cant": "paths of any length, any number of transformers in series", "anchors": ["ditto/modify/system_structure.py:system_structure_modifier.set_nominal_voltages"]}
{"id": "C46", "title": "The overhead percentages are those of the lines of that voltage", "statement": "perct_mv_oh_len and perct_lv_oh_len of compute_all_metrics are the overhead length of the lines of that voltage level over the length of all lines of that level, times 100; they are between 0 and 100.", "quantifier": "every model, any number of lines with any voltages and lengths", "why_tests_cant": "sums over models of any size, with lines of every combination of voltage and type", "anchors": ["ditto/metrics/network_analysis.py:NetworkAnalyzer.compute_all_metrics", "ditto/metrics/network_analysis.py:NetworkAnalyzer.analyze_single_object"]}
{"id": "C47", "title": "Counters of compute_all_metrics count the objects", "statement": "The numbers of fuses, reclosers, switches, regulators, capacitors, transformers and loads (by voltage and by number of phases) and of customers are those of the objects of the model, and the averages per transformer are the number of loads (customers) behind transformers over the number of those transformers.", "quantifier": "every model, in every order of its objects", "why_tests_cant": "one pass of a large accumulating loop over models of any size", "anchors": ["ditto/metrics/network_analysis.py:NetworkAnalyzer.compute_all_metrics", "ditto/metrics/network_analysis.py:NetworkAnalyzer.analyze_single_object"]}
{"id": "C48", "title": "The metrics of a feeder are the metrics of its objects", "statement": "compute_all_metrics_per_feeder returns for each feeder with a substation, and for no other one, the metrics compute_all_metrics returns for the objects of the feeder; lengths, demand and customers of the feeders add up to those of all objects in feeders; a feeder without an entry in the substations raises KeyError.", "quantifier": "every model, any number of feeders, any assignment of objects to feeders", "why_tests_cant": "any interleaving of objects of different feeders in the model", "anchors": ["ditto/metrics/network_analysis.py:NetworkAnalyzer.compute_all_metrics_per_feeder", "ditto/metrics/network_analysis.py:NetworkAnalyzer.setup_results_data_structure"]}
{"id": "C49", "title": "The functions for single metrics agree with compute_all_metrics", "statement": "lv_length_miles, mv_length_miles, number_of_*, total_demand and percentage_load_LV_kW_phX return the value compute_all_metrics reports under the corresponding name; the three percentages add up to 100 and other phases raise ValueError.", "quantifier": "every model", "why_tests_cant": "equality of two separately written loops over models of any size", "anchors": ["ditto/metrics/network_analysis.py:NetworkAnalyzer.lv_length_miles", "ditto/metrics/network_analysis.py:NetworkAnalyzer.mv_length_miles", "ditto/metrics/network_analysis.py:NetworkAnalyzer.number_of_regulators", "ditto/metrics/network_analysis.py:NetworkAnalyzer.percentage_load_LV_kW_phX"]}
{"id": "C50", "title": "OpenDSS files describe each line by its own wires, geometry or code", "statement": "The OpenDSS writer describes a line by a geometry exactly if the positions, GMR, diameters and ampacities (and the concentric neutrals of cables) of all its wires are known, otherwise by a line code. Whatever names are given to wires, geometries and codes, the entry a line refers to exists in the written files, once, and has the parameters of this line: its wires in their order with their data and positions, or its matrices, phases and ampacity. Nothing but names is changed in the model.", "quantifier": "every list of lines and wires, with and without names, with names shared in every way, with and without files per feeder", "why_tests_cant": "names are generated, shared and compared in loops over any number of lines; a clash shows only for special combinations of names", "anchors": ["ditto/writers/opendss/write.py:Writer.write_lines", "ditto/writers/opendss/write.py:Writer.write_wiredata", "ditto/writers/opendss/write.py:Writer.write_linegeometry", "ditto/writers/opendss/write.py:Writer.write_linecodes", "ditto/writers/opendss/write.py:Writer.parse_wire", "ditto/writers/opendss/write.py:Writer.parse_cable", "ditto/writers/opendss/write.py:Writer.parse_line", "ditto/writers/opendss/write.py:Writer.parse_line_geometry"]}
{"id": "C51", "title": "Every object is written to the OpenDSS file of its substation and feeder", "statement": "write_* distribute the objects over files by substation and feeder (or to one file): every named object is written exactly once, to the file of its group, in the order of the model, and every written file is redirected exactly once; the combined file of bus coordinates has every named node with a position once; the master file redirects every file once, wire data and codes before lines and lines before transformers.", "quantifier": "every model, any assignment of objects to substations and feeders, each of the four settings of separate_feeders and separate_substations, every iteration order of python sets", "why_tests_cant": "any number of groups and names; set iteration order depends on hash seeds; collisions appear only for special names", "anchors": ["ditto/writers/opendss/write.py:Writer.write_bus_coords", "ditto/writers/opendss/write.py:Writer.write_transformers", "ditto/writers/opendss/write.py:Writer.write_loads", "ditto/writers/opendss/write.py:Writer.write_lines", "ditto/writers/opendss/write.py:Writer.write_capacitors", "ditto/writers/opendss/write.py:Writer.write_master_file"]}
{"id": "C52", "title": "Loads keep power, phases, voltage and connection through OpenDSS files", "statement": "The OpenDSS text of a load has its total active and reactive power in kW and kvar, its voltage in kV, its connection and its phases; a load that is written, taken in by OpenDSS and read again has the same phases, connection, voltages and powers. Loads with missing data raise the documented errors.", "quantifier": "every load with any list of phase loads, all values of powers (any ordered field with square roots), every answer of OpenDSS that reports what it was given with the power factor defined by P and Q", "why_tests_cant": "equality of real-valued sums over any list of phases, with square roots; all sign combinations of P and Q", "anchors": ["ditto/writers/opendss/write.py:Writer.write_loads", "ditto/writers/opendss/write.py:Writer.phase_mapping", "ditto/readers/opendss/read.py:Reader.parse_loads", "ditto/readers/opendss/read.py:Reader.phase_mapping"]}
{"id": "C53", "title": "Capacitors keep reactive power, phases and control through OpenDSS files", "statement": "The OpenDSS text of a capacitor has its total reactive power in kvar, its voltage, connection and phases, and a control exactly if one of the control attributes is known; a capacitor that is written, taken in by OpenDSS and read again has the same phases, voltage, connection, total reactive power and control values.", "quantifier": "every capacitor with any list of phases and any control attributes, every answer of OpenDSS that reports what it was given, among any other controls", "why_tests_cant": "sums over lists of phases; search among any number of controls", "anchors": ["ditto/writers/opendss/write.py:Writer.write_capacitors", "ditto/writers/opendss/write.py:Writer.mode_mapping", "ditto/readers/opendss/read.py:Reader.parse_capacitors"]}
{"id": "C54", "title": "Lines keep length, ends, phases, impedances and device through OpenDSS files", "statement": "The OpenDSS text of a line has its length in km, its ends with the phases of its wires in order, the switch flag for switches and breakers, its state, and a fuse with the largest rating for a fuse; a line that is written with its code, taken in by OpenDSS and read again has the same name (lower case), length, ends, phases, impedance and capacitance matrices, ampacity and, for switches and fuses, the same kind and state.", "quantifier": "every line with any wires and matrices of any size, every answer of OpenDSS that reports what it was given (lower triangles of the matrices)", "why_tests_cant": "matrices of any size pass through triangular text and symmetrisation; devices are recognised by names", "anchors": ["ditto/writers/opendss/write.py:Writer.write_lines", "ditto/writers/opendss/write.py:Writer.parse_line", "ditto/readers/opendss/read.py:Reader.parse_lines", "ditto/readers/abstract_reader.py:AbstractReader.symmetrize"]}
{"id": "C55", "title": "Lines described by a geometry keep their conductors through OpenDSS files", "statement": "A line that is written with a geometry, taken in by OpenDSS and read again has the same conductors in the same order: phase, position, GMR, diameter, ampacities, resistance and concentric neutral of each wire.", "quantifier": "every line with any number of wires, any list of wire and cable data in the network, every answer of OpenDSS that reports what it was given in either form of lists", "why_tests_cant": "loops over any number of wires and cables whose variables are shared between iterations", "anchors": ["ditto/writers/opendss/write.py:Writer.parse_line_geometry", "ditto/writers/opendss/write.py:Writer.parse_wire", "ditto/writers/opendss/write.py:Writer.parse_cable", "ditto/readers/opendss/read.py:Reader.parse_lines"]}
{"id": "C56", "title": "Switching devices without ampacity take it from the network", "statement": "After set_switching_devices_ampacity every switch, breaker, sectionalizer, fuse or recloser with a missing ampacity has on all wires the greatest of its own ampacities, or if it has none the ampacity of a line it is connected to; no other line is changed, no value is invented, and the method ends.", "quantifier": "every network, every list of lines and ampacities, every sequence of the random numbers that the search draws", "why_tests_cant": "random walk over any graph; may run for ever for some graphs and draws", "anchors": ["ditto/modify/system_structure.py:system_structure_modifier.set_switching_devices_ampacity"]}
{"id": "C57", "title": "At most one closed switch per feeder becomes a recloser", "statement": "replace_kth_switch_with_recloser turns, for every substation connection below 69 kV, the k-th closed switch downstream of it into a recloser, where k is the drawn depth, and changes nothing if there are fewer; nothing else is changed and the method ends.", "quantifier": "every model and network, any number of connections, every sequence of drawn depths", "why_tests_cant": "walks of any length and all draws", "anchors": ["ditto/modify/system_structure.py:system_structure_modifier.replace_kth_switch_with_recloser"]}
{"id": "C58", "title": "The secondary winding of a transformer gets the phases of the loads it feeds", "statement": "After terminals_to_phases every load knows the transformer that feeds it, and the secondary winding of a transformer with two windings (or three, with one phase added) has the phases of the loads it feeds; all other windings and transformers are unchanged.", "quantifier": "every network, any number of loads and transformers with any phases", "why_tests_cant": "walks of any length, any number of loads per transformer", "anchors": ["ditto/modify/system_structure.py:system_structure_modifier.terminals_to_phases"]}
{"id": "C59", "title": "The head node of a feeder is a node below its substation", "statement": "set_feeder_headnodes gives every feeder the node directly downstream of its substation whose name corresponds to that of the feeder by the documented convention, with the voltages of that node, and leaves all else unchanged.", "quantifier": "every network and any names of feeders and nodes", "why_tests_cant": "quantifies over all strings", "anchors": ["ditto/modify/system_structure.py:system_structure_modifier.set_feeder_headnodes"]}
{"id": "C60", "title": "Switches are opened and closed as the OpenDSS file says", "statement": "After open_close_switches every line that the file declares as a switch has all wires open if its r1 is 1e11, else all closed, the last entry counting; no other object is changed.", "quantifier": "every file of any number of entries and properties, any names, every model", "why_tests_cant": "quantifies over all texts", "anchors": ["ditto/modify/system_structure.py:system_structure_modifier.open_close_switches"]}
{"id": "C61", "title": "Transformers keep ends, windings, ratings and impedances in OpenDSS files", "statement": "A transformer written to OpenDSS files and read from them has the same name (in lower case), the same ends, and windings with the same connection, voltage, rating, emergency rating, resistance, grounding, phases and taps in the same order, the same reactances, losses and substation flag; a center tap stays one.", "quantifier": "every transformer with any number of windings and phase windings and any values, every report of OpenDSS that agrees with the text, any objects read before", "why_tests_cant": "quantifies over all transformers and all texts", "anchors": ["ditto/writers/opendss/write.py:Writer.write_transformers", "ditto/readers/opendss/read.py:Reader.parse_transformers"]}
{"id": "C62", "title": "Regulators keep control settings, transformer and windings in OpenDSS files", "statement": "A regulator written to OpenDSS files and read from them has the same name, regulated winding, current and voltage transformer ratings, delay, bandwidth, band center, setpoint, steps, losses, voltage limit, monitored phase and compensators, and the transformer it is connected to; one without a transformer gets its own, with its ends, connections, voltages, ratings, phases and reactance.", "quantifier": "every regulator with any number of windings and phases and any values, every list of other transformers, every report of OpenDSS that agrees with the text", "why_tests_cant": "quantifies over all regulators, transformers and texts", "anchors": ["ditto/writers/opendss/write.py:Writer.write_regulators", "ditto/readers/opendss/read.py:Reader.parse_regulators"]}
{"id": "C63", "title": "Impedances computed from wires follow Carson's equations", "statement": "The impedance matrix that a reader computes for wires with known radii, resistances and distances is the one of Carson's equations, in ohms per meter; the neutrals of cables, and the neutral of four wires, are eliminated; missing values are replaced by the documented defaults; wires at the same place or without radius are rejected. Sequence impedances are those of this matrix.", "quantifier": "every list of wires or cables of any length, all real values and distances, with and without distance matrix and reduction", "why_tests_cant": "quantifies over all real numbers and any number of wires; reduction of 2n conductors to n for every n", "anchors": ["ditto/readers/abstract_reader.py:AbstractReader.get_phase_impedances", "ditto/readers/abstract_reader.py:AbstractReader.get_primitive_impedance_matrix", "ditto/readers/abstract_reader.py:AbstractReader.carson_equation_self", "ditto/readers/abstract_reader.py:AbstractReader.carson_equation", "ditto/readers/abstract_reader.py:AbstractReader.get_sequence_impedances", "ditto/readers/abstract_reader.py:AbstractReader.distance"]}
{"id": "C64", "title": "Nodes keep position and phases in OpenDSS files", "statement": "After a model is written to OpenDSS files and read again, every node is there with its position; the nodes are exactly the buses of the coordinates file and of the equipment, each once; the phases of a node are exactly the phases of the lines, transformers and loads connected to it; a network with neutrals or single phase equipment can be read.", "quantifier": "every list of nodes, every text of a coordinates file, all lines, transformers and loads with any bus names and numbers, any delimiter", "why_tests_cant": "quantifies over arbitrary file texts and arbitrary sets of equipment; the phases of a bus depend on the whole history of the loop over lines, transformers and loads", "anchors": ["ditto/writers/opendss/write.py:Writer.write_bus_coordinates", "ditto/readers/opendss/read.py:Reader.parse_nodes", "ditto/readers/opendss/read.py:Reader.phase_mapping"]}
{"id": "C65", "title": "Power sources and feeders keep their data in OpenDSS files", "statement": "After a model is written to OpenDSS files and read again, its power source is at the same bus and position with the same voltage, per unit value, impedances, angle, power and phases; every object belongs to the feeder of the source; the feeder file gives every feeder its substation and transformer.", "quantifier": "all models with any number of sources with any subset of attributes, every text of a coordinates file, every list of voltage sources reported by OpenDSS, every text of a feeder file", "why_tests_cant": "quantifies over arbitrary file texts and over the history of loops that leave values behind in variables", "anchors": ["ditto/writers/opendss/write.py:Writer.write_master_file", "ditto/readers/opendss/read.py:Reader.parse_power_source", "ditto/readers/opendss/read.py:Reader.parse_feeder_metadata"]}
{"id": "C66", "title": "Nominal voltages after reading OpenDSS files", "statement": "After OpenDSS files are read, every node has the base voltage of its bus; every object with a voltage of its own keeps it; every object without takes the voltage of the node it is connected to; every winding without voltage takes the voltage of the node on its side.", "quantifier": "all lists of objects with any names and connections in any order, all lists of buses with any base voltages", "why_tests_cant": "quantifies over every model and every collision of names; voltages are assigned in place while the loop reads them", "anchors": ["ditto/readers/opendss/read.py:Reader.set_nominal_voltages", "ditto/store.py:Store.set_names", "ditto/models/base.py:DiTToHasTraits.set_name"]}
{"id": "C67", "title": "Storages and generators keep their data in OpenDSS files", "statement": "After a model is written to OpenDSS files and read again, every storage has the same name, bus, phases, voltage, power, energies, state, rates and impedances; a storage without voltage takes the one of its bus; every enabled generator of an OpenDSS circuit is read with all its phases.", "quantifier": "all storages with any subset of attributes and any number of phases, every list of storages and generators reported by OpenDSS", "why_tests_cant": "quantifies over every combination of missing attributes and all real values; errors of units are proportional and show for no zero value only", "anchors": ["ditto/writers/opendss/write.py:Writer.write_storages", "ditto/readers/opendss/read.py:Reader.parse_storage", "ditto/readers/opendss/read.py:Reader.parse_generators"]}
{"id": "C68", "title": "PV systems and their inverter controls in OpenDSS files", "statement": "Every PV system is written with its bus, phases, voltage, ratings, connection, limits and power factor; every PV system with a volt-var, volt-watt or combined control gets exactly one inverter control of that kind, and the curves that the controls refer to are defined in the same file.", "quantifier": "all PV systems with any subset of attributes, all lists of PV systems of a feeder with any mix of controls in any order", "why_tests_cant": "quantifies over all mixes and orders of controls in a feeder; whether a control is written depends on the other PV systems of the feeder and on their order", "anchors": ["ditto/writers/opendss/write.py:Writer.write_PVs"]}
{"id": "C69", "title": "Positions of wires from a GridLAB-D line spacing", "statement": "If the distances of a line spacing are those between wires at some points of the plane and, if given, between these wires and the earth, then reading it places the wires, in meters, at the same distances from each other and at the same heights.", "quantifier": "all positions of one to four wires with different phases, in any order, with or without distances to the earth; exact real numbers", "why_tests_cant": "quantifies over all positions of the wires; which side of the line through the outermost wires is taken depends on equalities between real numbers", "anchors": ["ditto/readers/gridlabd/read.py:Reader.compute_spacing"]}
{"id": "C70", "title": "Impedance matrices of overhead lines read from GridLAB-D", "statement": "An overhead line whose configuration gives conductors and a spacing gets the impedance matrix of Carson's equations for the wires at these distances, with the neutral eliminated, in ohms per meter; a configuration with its own matrix gets that matrix.", "quantifier": "all positions, resistances and radii of two to four wires with different phases, in any order; exact real and complex numbers", "why_tests_cant": "quantifies over all real positions and radii; the elimination is a statement about all currents", "anchors": ["ditto/readers/gridlabd/read.py:Reader.compute_matrix", "ditto/readers/gridlabd/read.py:Reader.parse (overhead lines)"]}
{"id": "C71", "title": "Objects of GridLAB-D files", "statement": "Reading a GridLAB-D file finds exactly the objects the file describes, each with its class and the values of its attributes, under its name or a name made from its ends; objects of files that are included are found, too; the value of a schedule is that of its entry for the chosen time.", "quantifier": "all files: any number of rows, objects, statements, comments and blanks, any texts", "why_tests_cant": "quantifies over all texts of files, including layout, comments and order; and over what was read before in the same program", "anchors": ["ditto/readers/gridlabd/read.py:Reader.parse (first part)", "ditto/formats/gridlabd/base.py:GridLABDBase"]}
{"id": "C72", "title": "Nodes written to and read from GridLAB-D files", "statement": "Nodes that are written to a GridLAB-D file are read from it again: all of them, in the same order, each with its name, its phases and its nominal voltage; the node with the name sourcebus is the power source.", "quantifier": "all lists of nodes with different names: any names without blanks, any phases of one letter, any voltages, and any way to write and read numbers that loses nothing; all files with a node", "why_tests_cant": "quantifies over all models and all ways to lay out the file; the composition of writer and reader is never run by unit tests on arbitrary models", "anchors": ["ditto/writers/gridlabd/write.py:Writer.write_nodes", "ditto/readers/gridlabd/read.py:Reader.parse (nodes)"]}
{"id": "C73", "title": "Tables of CYME files", "statement": "From a CYME file, all rows of the tables with a given header are read, in order, and nothing else: each under its first cell, with the cells of the columns named in the format line of its table, whatever the order and the case of the columns; without format line the known positions are used.", "quantifier": "all files: any number of tables, rows, columns and cells, any texts in them, any other lines in between", "why_tests_cant": "quantifies over all files, column orders and positions of tables; wrong assignments only show for particular layouts", "anchors": ["ditto/readers/cyme/read.py:Reader.parser_helper", "ditto/readers/cyme/read.py:Reader.check_object_in_line"]}
{"id": "C74", "title": "Sections and networks of CYME files", "statement": "From the table of sections of a CYME file, every section gets its values by the names of the columns and the network under which it stands, every network gets its values and the list of its sections, and nothing else becomes a section; the end of the table is noticed.", "quantifier": "all files: any number of networks and sections, any columns in any order and any case of letters, any texts in the cells, any lines before and after", "why_tests_cant": "quantifies over all files and column orders; a missing empty line or a network without sections only shows for particular files", "anchors": ["ditto/readers/cyme/read.py:Reader.parse_sections"]}
{"id": "C75", "title": "Loads of CYME files", "statement": "From the customer loads of a CYME file, every section with customers gets one load at its first node and in its network, with the phases of its rows, each with its share of the active and reactive power that the row states, in whatever way the row states it; no power is lost, the numbers of users and the connected transformers are added, and connection and customer class are those that the file gives.", "quantifier": "all tables of customer loads: any number of rows per section in any order, any powers, power factors and types of values, any number formats, any sections, networks, connections and classes", "why_tests_cant": "quantifies over all rows and real powers; variables of the loop that keep their values from the row before only show for particular sequences of rows", "anchors": ["ditto/readers/cyme/read.py:Reader.parse_loads", "ditto/readers/cyme/read.py:Reader.connection_configuration_mapping"]}
{"id": "C76", "title": "Header, nodes and head nodes of CYME files", "statement": "The header of a CYME file gives the version and the units of the file, and a file without units is refused; every node of the file is in the model with its name, voltage and position, every bus with its first position, those of its connectors in the order of the file and its last one; each head node gives a feeder that starts at one of the nodes; the connections of substations mark their nodes.", "quantifier": "all files: any lines before, between and after, any versions, any number of nodes, buses, connectors, head nodes and connections in any order, any columns, any number formats", "why_tests_cant": "quantifies over all files; repeated rows get keys with stars, so which connectors a bus gets depends on the whole table", "anchors": ["ditto/readers/cyme/read.py:Reader.parse_header", "ditto/readers/cyme/read.py:Reader.parse_head_nodes", "ditto/readers/cyme/read.py:Reader.parse_nodes", "ditto/readers/cyme/read.py:Reader.parse_subnetwork_connections"]}
{"id": "C77", "title": "Sources of CYME files", "statement": "Every source of a CYME file (or, in files without sources, every source equivalent of the default load model) gives exactly one source in the model, at its node, with the voltage, phases and angle of the file, the rated power of its substation in VA and the positive and zero sequence impedances of its source equivalent.", "quantifier": "all network and equipment files: tables in any order with any other lines between them, any columns, any number of sources, equivalents, load models and substations, any sections and number formats", "why_tests_cant": "quantifies over all files and all combinations of sources, equivalents, substations and sections; variables of the loop keep their values from the source before", "anchors": ["ditto/readers/cyme/read.py:Reader.parse_sources", "ditto/readers/cyme/read.py:Reader.update_header_mapping", "ditto/models/power_source.py:PowerSource"]}
{"id": "C78", "title": "Regulators written to CYME files", "statement": "In the CYME network file every section with regulators has exactly one row of regulator settings. It has the phases of all regulators on the section, each once, the set points, bandwidth and ratios, the compensator settings of each phase, and the name of a row of the equipment file that has the power, voltage, bandwidth and ratios; different equipment has different names.", "quantifier": "all lists of regulators in any order: any number of sections and of regulators on a section, any phases and values", "why_tests_cant": "quantifies over all models and orders of regulators; rows are merged pairwise, so that the result could depend on their order and number", "anchors": ["ditto/writers/cyme/write.py:Writer.merge_regulators", "ditto/writers/cyme/write.py:Writer.merge", "ditto/writers/cyme/write.py:Writer.write_network_file", "ditto/writers/cyme/write.py:Writer.write_equipment_file"]}
{"id": "C79", "title": "Regulators read from CYME files", "statement": "For every row of the regulator settings of a CYME network, reading gives one regulator for each of its phases, between the nodes of its section and on its feeder, with the transducer ratios and set voltage of the row, the bandwidth given for the phase or else that of its equipment, and two windings with the power, voltage and connection of the equipment. Regulators written by the CYME writer come back with the values that were written.", "quantifier": "all network and equipment files: any number of rows, sections and pieces of equipment, repeated sections, any columns in any order, any phases", "why_tests_cant": "quantifies over all files; the result depends on which columns exist, on the phase, on repeated keys and on the equipment that a row refers to", "anchors": ["ditto/readers/cyme/read.py:Reader.parse_regulators", "ditto/readers/cyme/read.py:Reader.phase_mapping", "ditto/readers/cyme/read.py:Reader.connection_configuration_mapping", "ditto/writers/cyme/write.py:Writer.write_network_file"]}
{"id": "C80", "title": "Capacitors read from CYME files", "statement": "For every row of the series and the shunt capacitor settings of a CYME network, reading gives one capacitor on its section and its feeder, at the first node of the section, with the connection and the voltage of the row or else of its equipment, the phase it monitors, and for each phase of the section the reactive power of the fixed capacitors, or of the switched ones if there are no fixed ones, or else of the equipment; a series capacitor has the reactance of its equipment.", "quantifier": "all network and equipment files: any number of tables, rows, sections and pieces of equipment, repeated sections, any columns in any order, any phases", "why_tests_cant": "quantifies over all files; the result depends on which columns exist, on zero and unreadable numbers, on repeated keys across tables and on the equipment that a row refers to", "anchors": ["ditto/readers/cyme/read.py:Reader.parse_capacitors", "ditto/readers/cyme/read.py:Reader.capacitors_connection_mapping", "ditto/models/capacitor.py:Capacitor"]}
{"id": "C81", "title": "Capacitors written to CYME files and read back", "statement": "For every list of capacitors, the CYME writer gives each of them a section with its phases, a row with its connection, the reactive power of each phase, the voltage, the code of its control and its limits, and the name of equipment with the power of a phase and the voltage; equipment with different data has different names. Reading these files again gives capacitors with the same connection, voltage, phases and powers.", "quantifier": "all lists of capacitors: any number of them, any phases, powers, voltages, connections and controls, equal or different equipment, names of any length, and all files that contain the written tables", "why_tests_cant": "quantifies over all lists of capacitors; the numbers of the equipment depend on all earlier ones, and whether the files can be read depends on every row", "anchors": ["ditto/writers/cyme/write.py:Writer.write_network_file", "ditto/writers/cyme/write.py:Writer.write_equipment_file", "ditto/readers/cyme/read.py:Reader.parse_capacitors"]}
{"id": "C82", "title": "Loads written to CYME files", "statement": "For every list of loads, the CYME writer gives each of them a section from its node to itself with its phases (two phases for a delta load on one phase), a row with its connection, and a row of a customer with its phases and the sum of its active and reactive power in kW and kvar, or the shares of these for center taps. All cells are in the columns that the file names, and reading the file again gives the loads.", "quantifier": "all lists of loads: any number of them, any phases, powers, connections, center taps with and without shares, names of any length", "why_tests_cant": "quantifies over all lists of loads with all combinations of present and absent attributes; that no written file can be read back is a statement about all files", "anchors": ["ditto/writers/cyme/write.py:Writer.write_load_file", "ditto/readers/cyme/read.py:Reader.parse_loads"]}
{"id": "C83", "title": "Transformers of CYME files", "statement": "For every CYME network file with settings of transformers (auto, grounding, three winding, two winding, phase shifter) and every equipment file, one transformer per row of the settings is made, in order, between the nodes of its section, with its name, feeder, position and one winding per winding of its kind with power, voltage, connection, phases and tap positions; the reactance and the resistances of a transformer with two windings are those of a phase for the impedances of the positive and zero sequence; a transformer has a load tap changer exactly if its equipment has one, with its range of steps, set point, bandwidth and ratios. Rows that cannot be read stop the reading with an exception.", "quantifier": "all network and equipment files: any number of tables and rows in any order and mixed with other lines, any columns in any order, any sections and feeders", "why_tests_cant": "quantifies over all files, all subsets of columns and all numbers in them; that the impedance never depends on the positive sequence and that some values are never set are statements about all files", "anchors": ["ditto/readers/cyme/read.py:Reader.parse_transformers", "ditto/readers/cyme/read.py:Reader.transformer_connection_configuration_mapping"]}
{"id": "C84", "title": "Panels of photovoltaic systems in CYME files", "statement": "For every rated power (or else active rating) of a photovoltaic system, the CYME writer writes the sides of a rectangle of panels of 80 W that has this power with at most one panel more than needed, and no other rectangle with as many panels has a smaller perimeter.", "quantifier": "all powers, hence all numbers of panels", "why_tests_cant": "quantifies over all numbers of panels; the shape depends on the prime factors of the number, so that samples of numbers do not settle it", "anchors": ["ditto/writers/cyme/write.py:Writer.smallest_perimeter", "ditto/writers/cyme/write.py:Writer.write_network_file"]}
{"id": "C85", "title": "Transformers in the CYME writer", "statement": "For every list of transformers with two windings and center tap transformers, the CYME writer writes one row of settings for each, in order, with its section, position, connection, phases, shift and tap, and the equipment of the row is in the equipment file with the power, voltages, connection, losses and impedance of the transformer; different pieces of equipment have different names and different contents; and the files, read back, give the transformers again.", "quantifier": "all lists of transformers, numbers, texts, histories of transformers written before, ways to print numbers and digests", "why_tests_cant": "quantifies over all lists of transformers: the equipment of a transformer, and some of its numbers, depend on those written before it", "anchors": ["ditto/writers/cyme/write.py:Writer.write_network_file", "ditto/writers/cyme/write.py:Writer.write_equipment_file", "ditto/writers/cyme/write.py:Writer.transformer_connection_configuration_mapping", "ditto/writers/cyme/write.py:Writer.get_center_tap_impedances", "ditto/readers/cyme/read.py:Reader.parse_transformers"]}
{"id": "C86", "title": "Loads in GridLAB-D files", "statement": "Reading a GridLAB-D file gives exactly one load for each name of a load object in it, at the parent of the load or at a new node with the name of the load, with the voltage and the phases of the object; the power of each phase is the constant power, or that of the constant impedance or current at the given voltage, or the base power, which may be a number times the present value of a schedule; a ZIP load has the shares of its fractions and power factors; and if all numbers can be read, the reading succeeds.", "quantifier": "all files of objects and schedules, schemas, texts of numbers, ways to read real and complex numbers", "why_tests_cant": "quantifies over all files: which attribute gives the power of a phase depends on which others are there and whether their real parts are zero", "anchors": ["ditto/readers/gridlabd/read.py:Reader.parse", "ditto/models/load.py:Load", "ditto/models/phase_load.py:PhaseLoad", "ditto/formats/gridlabd/base.py"]}
{"id": "C87", "title": "Loads in the GridLAB-D writer", "statement": "The writer gives one load object for each load, with its name, voltage and bus, the constant power of each phase that is no ZIP load, and for each phase of a ZIP load the fractions of constant current, power and impedance with the factors that give back the active and reactive shares, and the base power; a program that reads the file finds all of this; and reading the file again gives the same loads with the same power at the same buses.", "quantifier": "all lists of loads with any phases and numbers, files around the loads, schemas, ways to print and read real and complex numbers", "why_tests_cant": "quantifies over all lists of loads and everything else in the file: whether a load is found again depends on its phases, on its name and on the names of the other objects", "anchors": ["ditto/writers/gridlabd/write.py:Writer.write_loads", "ditto/readers/gridlabd/read.py:Reader.parse", "ditto/models/load.py:Load", "ditto/models/phase_load.py:PhaseLoad"]}
{"id": "C88", "title": "Capacitors in GridLAB-D files", "statement": "Reading a GridLAB-D file gives exactly one capacitor for each name of a capacitor in the file, at the bus that the file gives as parent, with its voltage, delay, control mode, limits and measured phase, and for each phase its reactive power in var and whether it is switched in; and a file can be read if its numbers can be read.", "quantifier": "all GridLAB-D files with any objects, schemas, ways to read numbers", "why_tests_cant": "quantifies over all files: which limits a capacitor gets depends on which of four attributes are present and in which combination", "anchors": ["ditto/readers/gridlabd/read.py:Reader.parse", "ditto/models/capacitor.py:Capacitor", "ditto/models/phase_capacitor.py:PhaseCapacitor"]}
{"id": "C89", "title": "Capacitors in the GridLAB-D writer", "statement": "The writer gives one capacitor object for each capacitor, with its name, voltage, delay, control mode, limits, measured phase and bus, and for each phase its reactive power in Mvar and whether it is switched in; and reading the file again gives the same capacitors.", "quantifier": "all lists of capacitors with any numbers and phases, files around them, schemas, ways to print and read numbers", "why_tests_cant": "quantifies over all lists of capacitors and everything else in the file: whether a file can be read depends on which attributes of a capacitor are present", "anchors": ["ditto/writers/gridlabd/write.py:Writer.write_capacitors", "ditto/readers/gridlabd/read.py:Reader.parse", "ditto/models/capacitor.py:Capacitor", "ditto/models/phase_capacitor.py:PhaseCapacitor"]}
{"id": "C90", "title": "Fuses and switches in GridLAB-D files", "statement": "Reading a GridLAB-D file gives exactly one fuse for each name of a fuse in the file and one switch for each name of a switch, with the ends that the file gives; the wires of each are exactly its phases, and a wire is open if and only if the file says that its phase, or else the whole object, is open or blown.", "quantifier": "all GridLAB-D files with any objects, schemas, phases and states", "why_tests_cant": "quantifies over all files and all combinations of states of phases and of the whole object", "anchors": ["ditto/readers/gridlabd/read.py:Reader.parse", "ditto/models/wire.py:Wire", "ditto/models/line.py:Line"]}
{"id": "C91", "title": "Line configurations in GridLAB-D files", "statement": "Writing a network as a GridLAB-D file writes line configurations with different names; each line that is neither switch nor fuse is assigned the name of one of them, which is in the same file and has the impedance of each pair of phases of the line, in the unit of GridLAB-D, and no other impedance; lines with the same impedances share one.", "quantifier": "all lists of lines, matrices, phases, printings of numbers and earlier files of the process", "why_tests_cant": "quantifies over all lists of lines and all files written before: the dictionaries of configurations survive the writing of a file", "anchors": ["ditto/writers/gridlabd/write.py:Writer.write_line_configurations", "ditto/writers/gridlabd/write.py:Writer", "ditto/models/line.py:Line", "ditto/models/wire.py:Wire"]}
{"id": "C92", "title": "Lines in the GridLAB-D writer", "statement": "Writing a network as a GridLAB-D file gives one object for each line, of the class of the line, with its name, buses, phases, length in feet and the configuration with its impedances, and with the position of switches and fuses; ditto can read the file again.", "quantifier": "all lists of lines, assigned configurations, printings of numbers and other contents of the file", "why_tests_cant": "quantifies over all lists of lines and all contents of the rest of the file", "anchors": ["ditto/writers/gridlabd/write.py:Writer.write_lines", "ditto/writers/gridlabd/write.py:Writer.write_line_configurations", "ditto/readers/gridlabd/read.py:Reader.parse"]}
{"id": "C93", "title": "Loads of Synergi databases", "statement": "Reading a Synergi database gives exactly one load for each row of its table of loads and each large customer that is a load, at the end of its section, with its feeder and substation, with the powers of its phases and the voltage of the lines at its node; the whole power of the loads is the one of the database, names are different, and the order of rows does not matter.", "quantifier": "all tables of sections, loads, large customers, feeders, regulators and transformers, all roundings", "why_tests_cant": "quantifies over all databases and all orders of rows", "anchors": ["ditto/readers/synergi/read.py:Reader.parse", "ditto/readers/synergi/read.py:create_mapping", "ditto/readers/synergi/db_parser.py:DbParser.ToLowerCase"]}
{"id": "C94", "title": "Capacitors of Synergi databases", "statement": "Reading a Synergi database gives exactly one capacitor for each row of its table of capacitors, at the end of its section, with its feeder and substation, its voltage in volts, its control mode and settings, the line that it measures, and on each of its phases the reactive power of that phase in var.", "quantifier": "all tables of sections, feeders and capacitors", "why_tests_cant": "quantifies over all databases and all texts of phases", "anchors": ["ditto/readers/synergi/read.py:Reader.parse", "ditto/readers/synergi/db_parser.py:DbParser.ToLowerCase"]}
{"id": "C95", "title": "Sources and nodes of Synergi databases", "statement": "Reading a Synergi database gives one source for each feeder of the table of feeders and each other feeder that sections name, with its own voltage, angle, impedances, connection and substation, whatever the order in which sets are traversed; and one node for each row of the table of nodes, with its position, the feeder of the sections that meet it, and the phases of those sections.", "quantifier": "all tables of feeders, substation transformers, sections and nodes, all orders of traversal of sets", "why_tests_cant": "quantifies over all databases and all orders of a set", "anchors": ["ditto/readers/synergi/read.py:Reader.parse", "ditto/readers/synergi/read.py:create_mapping"]}
{"id": "C96", "title": "Transformers of Synergi databases", "statement": "Reading a Synergi database gives exactly one transformer for each row of its table of transformers, from the node at the high side to the node at the low side of its section, with the feeder and substation of the section, and with the voltages, powers, connections, resistances and reactances of its type on the phases of the section, for two windings and for three.", "quantifier": "all tables of sections, feeders, transformers and types, all square roots", "why_tests_cant": "quantifies over all databases and all orders of types in the warehouse", "anchors": ["ditto/readers/synergi/read.py:Reader.parse"]}
{"id": "C97", "title": "Regulators of Synergi databases", "statement": "Reading a Synergi database gives exactly one regulator for each row of its table of regulators, along its section, with its feeder and substation, taps, delay, and the bandwidth and band center of its phases (the smallest one if they differ), with ratios and impedances of its type, and with two windings that have exactly its phases.", "quantifier": "all tables of sections, feeders, regulators and types, all texts of phases", "why_tests_cant": "quantifies over all databases and all texts of phases", "anchors": ["ditto/readers/synergi/read.py:Reader.parse"]}
{"id": "C98", "title": "Lines and wires of Synergi databases", "statement": "Reading a Synergi database gives exactly one line for each section without regulator and transformer, in their order, with its name, ends, feeder, substation, kind, voltage and its length in meters, and with one wire for each of its letters (none for the neutral of an underground line). The wires have the name, sizes, resistance, ratings and the concentric neutral of their conductors, in SI units, and the places of the configuration.", "quantifier": "all tables of sections, feeders, conductors, configurations and devices, all length units and all readings of numbers", "why_tests_cant": "quantifies over all databases", "anchors": ["ditto/readers/synergi/read.py:Reader.parse", "ditto/readers/synergi/length_units.py:convert_length_unit"]}
{"id": "C99", "title": "Reclosers, switches and fuses of Synergi databases", "statement": "A line read from a Synergi database and its wires are a recloser, a switch or a fuse exactly if the section has one, and the wires have the ratings and the state of the device; protective devices are read too, and more than one device in a section is no error.", "quantifier": "all tables of sections, reclosers, switches, fuses, protective devices and types of switches", "why_tests_cant": "quantifies over all databases", "anchors": ["ditto/readers/synergi/read.py:Reader.parse"]}
{"id": "C100", "title": "Matrices of the lines of Synergi databases", "statement": "Each line read from a Synergi database has the impedance and the capacitance matrix of the sequence values of its own conductor, per meter, with one row for each of its phases: currents of the same value in the phases see the zero sequence, currents whose sum is zero the positive sequence.", "quantifier": "all tables of sections and conductors, all length units, all currents", "why_tests_cant": "quantifies over all databases, impedances and currents", "anchors": ["ditto/readers/synergi/read.py:Reader.parse"]}
{"id": "C101", "title": "Photovoltaics of Synergi databases", "statement": "Reading a Synergi database gives exactly one photovoltaic for each large customer, generator and distributed generator that is one by its type or by the type of its device, in their order, with its name (blanks as underscores), its phases (each one once), active and reactive power in W and var, its power factor, the bus at the end of its section, the feeder, the substation and the nominal voltage.", "quantifier": "all tables of sections, feeders, large customers, generators, distributed generators and generator devices, all readings of numbers and all rounding functions", "why_tests_cant": "quantifies over all databases", "anchors": ["ditto/readers/synergi/read.py:Reader.parse"]}
{"id": "C102", "title": "Objects of CSV files", "statement": "Reading a CSV file gives exactly the objects its rows describe: each row gives objects of its own, a header Class.list[i].list[j].attribute leads to the nested object at these places of the lists, each non-empty cell is the value of its attribute there (names in lower case), nested objects have the class their list requires, and there are no other objects, list entries or attributes.", "quantifier": "all tables of cells with distinct headers, all classes with their lists of objects and all checks of values", "why_tests_cant": "quantifies over all files", "anchors": ["ditto/readers/csv/read.py:Reader.parse"]}
{"id": "C103", "title": "Transformers of GridLAB-D files", "statement": "Reading a GridLAB-D file gives exactly one transformer for each name of a transformer, with its ends, two or (center-tapped) three windings with their phases, connections, nominal voltages in V, resistances and rated powers in VA, and the reactances between windings, all as its configuration says: the resistances of the windings make up the one of the configuration, and the secondary windings of a center-tapped transformer share its power.", "quantifier": "all GridLAB-D files, all readings of real and complex numbers", "why_tests_cant": "quantifies over all files", "anchors": ["ditto/readers/gridlabd/read.py:Reader.parse"]}
{"id": "C104", "title": "Transformers written to GridLAB-D files", "statement": "Every transformer that is not part of a regulator is written to the GridLAB-D file as one object with its name, ends and phases, and refers to a configuration of the same file that has its connections, voltages, rated power in kVA, reactance, resistance, losses and type of installation; equal configurations are shared. ditto can read the file.", "quantifier": "all networks, all numbers of transformers and windings, all ways to print numbers", "why_tests_cant": "quantifies over all networks and all sequences of files", "anchors": ["ditto/writers/gridlabd/write.py:Writer.write_transformer_configurations", "ditto/writers/gridlabd/write.py:Writer.write_transformers"]}
{"id": "C105", "title": "Regulators of GridLAB-D files", "statement": "Reading a GridLAB-D file gives exactly one regulator for each name of a regulator in the file, with its ends, phases, nominal voltage, and the tap positions, compensators, connections, steps, ratios, delay and band of its configuration. Tap positions and compensators may be given for phases that the regulator does not list.", "quantifier": "all files, all numbers of objects, all ways to read numbers", "why_tests_cant": "quantifies over all files", "anchors": ["ditto/readers/gridlabd/read.py:Reader.parse"]}
{"id": "C106", "title": "Regulators written to GridLAB-D files", "statement": "Writing a model to a GridLAB-D file writes each regulator once, with its name, its ends and the name of a configuration in the same file that has the settings of the regulator and the tap positions and compensators of its phases. Different configurations have different names, regulators with the same configuration have the same settings, and further files do not depend on those written before.", "quantifier": "all models, all numbers of regulators and transformers, all ways to print numbers, all orders in which a set is looped over", "why_tests_cant": "quantifies over all models and over the order of a set", "anchors": ["ditto/writers/gridlabd/write.py:Writer.write_regulator_configurations", "ditto/writers/gridlabd/write.py:Writer.write_regulators"]}
{"id": "C107", "title": "Buses, switches and sources of ePHASOR files", "statement": "Writing a model to an ePHASOR file writes one row for each pole of each switch with its buses and its state, one row for each phase a, b or c of each node with its voltage and the angle of that phase, and one row for each source with its voltage, angle, short circuit power, impedances and buses. Every bus that a switch or source uses is in the sheet of the buses.", "quantifier": "all models, all numbers of nodes, switches and sources, all orders of phases", "why_tests_cant": "quantifies over all models, and the columns of a sheet are filled independently of each other", "anchors": ["ditto/writers/ephasor/write.py:Writer.switch", "ditto/writers/ephasor/write.py:Writer.bus", "ditto/writers/ephasor/write.py:Writer.source"]}
{"id": "C108", "title": "Loads of ePHASOR files", "statement": "Writing a model to an ePHASOR file writes one row for each load, or for each group of single phase loads whose names only differ in the letter of the phase, with an ID of its own, the voltage in kV, the connection, the bus, active and reactive power of each phase in kW and kVAr, and the portions of constant impedance, current and power. No load is lost.", "quantifier": "all models, all numbers and orders of loads, all names, all numbers of phases", "why_tests_cant": "quantifies over all models; which row a load is written to depends on all loads before", "anchors": ["ditto/writers/ephasor/write.py:Writer.load"]}
{"id": "C109", "title": "Lines of ePHASOR files", "statement": "Writing a model to an ePHASOR file writes one row for each line that is not a switch, with its name, the buses of its phases at both ends, its length in miles, and the resistance, reactance and susceptance per mile of each pair of its phases. All buses of these rows are listed in the sheet Bus.", "quantifier": "all models, all numbers of lines, wires and phases, all sizes of matrices", "why_tests_cant": "quantifies over all models, and over all matrices of all lines", "anchors": ["ditto/writers/ephasor/write.py:Writer.line", "ditto/writers/abstract_writer.py:AbstractWriter.convert_from_meters"]}
{"id": "C110", "title": "Transformers of ePHASOR files", "statement": "Writing a model to an ePHASOR file writes one row for each transformer, with its name, the number of phases, and for each winding the buses of its phases, voltage in kV, power in kVA, resistance and connection, and with reactance and resistance as fractions and the tap of each phase. All buses of these rows are listed in the sheet Bus. Writing a model twice gives the same rows twice.", "quantifier": "all models, all numbers and orders of transformers, all names, all numbers of windings and phases, all sequences of files written by the same writer", "why_tests_cant": "quantifies over all models; which row a transformer is written to depends on all transformers before, and on the files the writer has written before", "anchors": ["ditto/writers/ephasor/write.py:Writer.transformer"]}
{"id": "C111", "title": "Time series of OpenDSS files", "statement": "Writing a model to OpenDSS files defines one load shape for each time series of the model, in the file of its substation and feeder, with its label, the number of its points and its interval; series with the same file of data share one shape. Loads and PV systems refer to the shapes of their series, as daily shapes if the data is of one day and as yearly ones otherwise. A factor of a series scales its data. The master file is solved for as many steps as the shortest series has.", "quantifier": "all models, all numbers and orders of time series, all labels, files, factors and names of feeders, each setting of separate_feeders and separate_substations, every iteration order of python sets", "why_tests_cant": "whether a series is written depends on all series before; scaled series, series with the names of feeders and files that are shared appear in few test models", "anchors": ["ditto/writers/opendss/write.py:Writer.write_timeseries", "ditto/writers/opendss/write.py:Writer.write_loads", "ditto/writers/opendss/write.py:Writer.write_PVs", "ditto/writers/opendss/write.py:Writer.write_master_file"]}
{"id": "C112", "title": "Master files of feeders and voltage bases of OpenDSS files", "statement": "The master file of an OpenDSS model lists the voltages between phases of all objects that are written, each once in increasing order. With separate folders each node at which a feeder starts gets a master file in the folder of the feeder: it has a circuit at this node, redirects to all files of the feeder in the order in which they are written, and lists the voltages of the feeder.", "quantifier": "all models, all numbers of feeders and connections, all names, each setting of separate_feeders and separate_substations, all nominal voltages", "why_tests_cant": "the master files depend on what all functions of the writer have written before for the same feeder, and on the names of all substations; tests compare a few files", "anchors": ["ditto/writers/opendss/write.py:Writer.write_master_file", "ditto/writers/opendss/write.py:Writer.write_transformers", "ditto/writers/opendss/write.py:Writer.write_loads", "ditto/writers/opendss/write.py:Writer.write_lines"]}
{"id": "C113", "title": "Triplex lines of GridLAB-D files", "statement": "A triplex line of a GridLAB-D file is read with its name, its ends and its length in meters. It has one wire for each live conductor and one for the neutral, each with the radius and the resistance of its own conductor and with the diameter and the insulation of the configuration. Its impedance matrix is that of Carson's equations in ohms per meter after the neutral is eliminated, so lines with the same configuration have the same matrix.", "quantifier": "all objects of a file, all configurations and conductors, all lengths and numbers, and all lines that were read before", "why_tests_cant": "the matrix involves logarithms and complex divisions of all values of the configuration, and variables keep their values from the objects read before; tests have no triplex lines", "anchors": ["ditto/readers/gridlabd/read.py:Reader.parse", "ditto/readers/gridlabd/read.py:Reader.compute_secondary_matrix"]}
{"id": "C114", "title": "Underground lines of GridLAB-D files", "statement": "An underground line of a GridLAB-D file is read with its name, its ends and its length in meters. It has one wire for each cable of its configuration, with the radii and the resistances of the conductor and of the neutral around it in meters and ohms per meter, at positions whose distances are those of the spacing. Its impedance matrix is that of Carson's equations in ohms per meter for these distances, after the neutrals are eliminated.", "quantifier": "all objects of a file, all configurations with up to four cables, all spacings whose distances are those of points in the plane, and all lines that were read before", "why_tests_cant": "the places come from Heron's formula with roots of sums of distances, and there are many choices of the longest side and of the order of cables; tests have few underground lines", "anchors": ["ditto/readers/gridlabd/read.py:Reader.parse", "ditto/readers/gridlabd/read.py:Reader.compute_matrix"]}
{"id": "C115", "title": "Lines and switching devices of CYME files", "statement": "Every row of a CYME network file for a line or a switching device becomes one line between the nodes of its section, in the network of its section, with its length and the name of its equipment. A device has one wire for each phase of the section, open exactly if the phase is not among the closed ones, and a neutral that is open exactly if all phases are. A line with sequence impedances gets the matrix of these impedances, in ohms per meter, and a line with impedances of each phase the matrix of those; the wires have the names, ampacities, radii and positions of their conductors.", "quantifier": "all network and equipment files: all tables of lines, cables, conductors, spacings and devices, all sections and all codes for closed phases", "why_tests_cant": "eleven tables are joined into one dictionary by the keys of the sections, and there are branches for each number of phases, each kind of table and each of six devices; tests look at the number of lines of a few files", "anchors": ["ditto/readers/cyme/read.py:Reader.parse_lines", "ditto/readers/cyme/read.py:Reader.configure_wire", "ditto/readers/abstract_reader.py:AbstractReader.update_dict"]}
{"id": "C116", "title": "Lines of CYME files with conductors by phases", "statement": "A line of a CYME file for which conductors are given by phases, with a spacing, becomes a line with one wire for each phase, with the data of the conductor of this phase, and a wire for the neutral if there is one. Its impedance matrix is that of Carson's equations for the radii and resistances of these conductors and the distances of their positions, in ohms per meter, reduced to the phases.", "quantifier": "all sections, phases, tables of conductors and spacings, positions, radii and resistances", "why_tests_cant": "the matrix comes from coordinates, logarithms and unit conversions, with positions and conductors that may be missing in any combination; no test file has the expected values", "anchors": ["ditto/readers/cyme/read.py:Reader.parse_lines", "ditto/readers/abstract_reader.py:AbstractReader.get_primitive_impedance_matrix", "ditto/readers/abstract_reader.py:AbstractReader.distance"]}
{"id": "C117", "title": "Several elements in one section of a CYME file", "statement": "If a section of a CYME file has several elements (regulators, transformers, lines), these are put in series between the two nodes of the section, regulators first, then transformers, then lines, with new nodes of their own between them; loads, photovoltaic systems, storages and capacitors of the section are at its last node. Sections do not get connected with each other by this.", "quantifier": "all sections with any number and order of elements, all names of nodes", "why_tests_cant": "it depends on the kinds, numbers and order of the elements of each section and on names that are made from those of nodes; tests have no section with several regulators or two such sections at one node", "anchors": ["ditto/readers/cyme/read.py:Reader.fix_section_overlaps"]}
{"id": "C118", "title": "Network equivalents of CYME files", "statement": "A network equivalent of a CYME file (a part of the network that CYME has reduced) is read as a line between the nodes of its section, with the phases and impedances of the file and the longest of its lengths, and as loads at both nodes with the powers of the file; a load that takes power is not lost.", "quantifier": "all rows of network equivalents with any numbers, all sections, everything that was read before", "why_tests_cant": "it depends on signs and zeros of more than thirty numbers of each row and on what other tables have for the same section; tests have no network equivalents", "anchors": ["ditto/readers/cyme/read.py:Reader.parse_network_equivalent"]}
{"id": "C119", "title": "Photovoltaic systems and storages of CYME files", "statement": "Each photovoltaic system and each storage of a CYME file is read as one object at the first node of its section, with the phases, ratings, power factors, limits, type of control, curves, energies and states of charge of the rows for its device; several of them in one section or rows for other devices do not disturb this.", "quantifier": "all tables of photovoltaic systems, storages, converters, control settings and generation models with any rows in any order, all sections and feeders, all numbers of an ordered field", "why_tests_cant": "it depends on how the rows of five tables in two files meet by names of devices, on rows that come several times and on missing or unreadable numbers; tests have no photovoltaic systems or storages of CYME files", "anchors": ["ditto/readers/cyme/read.py:Reader.parse_dg"]}
{"id": "C120", "title": "Sections and tables of lines written to CYME files", "statement": "Each line that is not dropped is written as one section with a name of its own, with its nodes and phases, in the network of its feeder or substation, and as one row of the table for its kind (overhead, by phases, underground, switch, fuse, recloser or breaker) with its length or the phases that are closed; points between the nodes belong to its section.", "quantifier": "all lists of lines with any names of nodes and feeders, wires, states, flags, indices and points, all hash functions, all numbers of an ordered field", "why_tests_cant": "names of sections depend on all the lines before, on parallel lines and on the length of names, and the network may come from the line before; tests compare a few written networks", "anchors": ["ditto/writers/cyme/write.py:Writer.write_network_file"]}
{"id": "C121", "title": "References of CYME lines to their equipment", "statement": "Each written line, switch, fuse, recloser and breaker refers to exactly one row of the equipment file, and this row has the data of the line; lines by phases refer to the conductor of each of their wires.", "quantifier": "all sequences of lines with any names, data and wires, all functions that make whole numbers of numbers", "why_tests_cant": "which identifier a line gets depends on all the lines before it (names, equal data, counters), and a later line can change the data of earlier ones; tests compare a few written files that are read again", "anchors": ["ditto/writers/cyme/write.py:Writer.write_network_file", "ditto/writers/cyme/write.py:Writer.write_equipment_file"]}
{"id": "C122", "title": "Impedances of lines in CYME equipment files", "statement": "The row of an overhead line has, per km, the resistance, reactance and susceptance of each phase and of each pair of phases of its matrices and the ampacities of its wires; the row of a cable has the zero and positive sequence impedances and susceptances that belong to its matrices.", "quantifier": "all impedance and capacitance matrices of three phases over any field, all orders of the phases, all ampacities of wires; for cables balanced matrices of any size", "why_tests_cant": "the numbers depend on the order of the phases, the sizes of two matrices and all of their entries; tests compare a few read networks", "anchors": ["ditto/writers/cyme/write.py:Writer.write_network_file", "ditto/writers/cyme/write.py:Writer.write_equipment_file"]}
{"id": "C123", "title": "Power sources written to CYME files", "statement": "Each power source of a model at a node has a row in the tables of sources and source equivalents of the network file with its node, feeder, voltage, angles and impedances, and a row in the equipment file with its data; each feeder has its head node and an equivalent.", "quantifier": "all lists of power sources with any data, all feeders and networks, numbers of any field", "why_tests_cant": "rows get their numbers and feeders from all sources and feeders of the model; tests write networks with one source that is at a head node", "anchors": ["ditto/writers/cyme/write.py:Writer.write_network_file", "ditto/writers/cyme/write.py:Writer.write_equipment_file"]}
{"id": "C124", "title": "Nodes written to and read from CYME files", "statement": "Reading the network file that was written for a model gives back each node that is not dropped and has a name, with its name and all its positions in their order, also the positions inside buses, and each connector of a bus names the section that is connected there.", "quantifier": "all lists of nodes with any number of positions, all elements with any connection indices, numbers of any type with a printer and a reader that fit", "why_tests_cant": "a bus is spread over two tables that are joined by names with stars; tests look at single files with one bus", "anchors": ["ditto/writers/cyme/write.py:Writer.write_network_file", "ditto/readers/cyme/read.py:Reader.parse_nodes"]}
{"id": "C125", "title": "Photovoltaic systems and storages written to CYME files", "statement": "Each photovoltaic system and each storage that is connected has a node, a section in the network of its feeder, and rows for its converter, its control and its settings, with the values of the object in the right columns; storages with the same data share one code in the equipment file.", "quantifier": "all lists of photovoltaic systems, storages and other objects in any order, with any data present or missing", "why_tests_cant": "local variables of the writer keep values of earlier objects, so what happens depends on the order of all objects of the model; tests write single photovoltaic systems", "anchors": ["ditto/writers/cyme/write.py:Writer.write_network_file", "ditto/writers/cyme/write.py:Writer.write_equipment_file", "ditto/models/photovoltaic.py:Photovoltaic", "ditto/models/storage.py:Storage"]}
{"id": "C126", "title": "Substations written to CYME files", "statement": "Each substation with elements in the model is written as a subnetwork with its name, placed above the centre of its connections of the lowest nominal voltage (or of its connections, or of all nodes, if these have no voltages or positions), and each node that connects it with other networks is written with its name and position; reading the file marks exactly these nodes as connections.", "quantifier": "all lists of networks and nodes, with any substations, voltages and positions present or missing", "why_tests_cant": "depends on the names of all networks and on all nodes of the model; tests write models with at most one substation with a short name", "anchors": ["ditto/writers/cyme/write.py:Writer.write_network_file", "ditto/readers/cyme/read.py:Reader.parse_subnetwork_connections", "ditto/models/node.py:Node"]}
{"id": "C127", "title": "Repair of transformers on the paths to loads", "statement": "After the repair, a transformer that is the only one between the source and a load is directed from the source to the load, and a transformer with one phase has a phase of the lines above it; transformers that are not alone on the path to a load are left as they are.", "quantifier": "all models of transformers, all sets of loads in any order and all paths of any length", "why_tests_cant": "loads are taken from a set in any order and several loads share a transformer; the repair has no tests", "anchors": ["ditto/consistency/fix_transformer_phase_path.py:fix_transformer_phase_path"]}
{"id": "C128", "title": "Voltages of nodes from the transformer above them", "statement": "After the voltages of the nodes have been set, every node below a transformer has the nominal voltage of the last winding of the nearest transformer between it and the source, and every other node has the voltage it had before.", "quantifier": "all networks, all lists of nodes and all voltages of windings", "why_tests_cant": "it depends on the whole route from the source to every node and on the order of the nodes; one exception leaves the rest of the nodes without voltage", "anchors": ["ditto/store.py:Store.set_node_voltages", "ditto/network/network.py:Network.get_upstream_transformer"]}
{"id": "C129", "title": "Attributes of the objects in the directed network", "statement": "After the attributes have been set, every edge of the directed network has the public attributes of the object on it, in whichever direction the object is given, every node has those of the object with its name, every name is known with the class of its object, and nothing else is written.", "quantifier": "all models, all directed networks, all names of attributes and all values", "why_tests_cant": "it depends on the order of the objects, on directions and on names that are used twice", "anchors": ["ditto/network/network.py:Network.set_attributes", "ditto/network/network.py:Network.rebuild_digraph"]}
{"id": "C130", "title": "Lines on a path and their impedances", "statement": "The list of lines between two nodes has the line for every two consecutive nodes of the path that are joined by one, in the order of the path and whatever the direction of the line, the way back has the same lines in the opposite order, and the list of impedances has one value for each of these lines.", "quantifier": "all lists of lines, all paths of any length and all matrices", "why_tests_cant": "it depends on the directions of lines, on parallel lines and on lines without data anywhere on the path", "anchors": ["ditto/metrics/network_analysis.py:NetworkAnalyzer.compute_node_line_mapping", "ditto/metrics/network_analysis.py:NetworkAnalyzer.list_lines_betweeen_nodes", "ditto/metrics/network_analysis.py:NetworkAnalyzer.get_impedance_list_between_nodes"]}
{"id": "C131", "title": "Distance of the furthest node", "statement": "The distance of the furthest node is the largest distance of a node from the source, in miles, and the faster way, which looks only at nodes at the end of the network, gives the same.", "quantifier": "all networks, all lengths and all trees of any depth", "why_tests_cant": "the faster way relies on the shape of the whole network", "anchors": ["ditto/metrics/network_analysis.py:NetworkAnalyzer.furtherest_node_miles", "ditto/metrics/network_analysis.py:NetworkAnalyzer.furtherest_node_miles_clever"]}
{"id": "C132", "title": "Lengths of lines and numbers of loads by phases", "statement": "The length of low or medium voltage lines with one, two or three phases is the total length, in miles, of exactly these lines, the three lengths sum up to that of all lines of the voltage, and the numbers of loads by phases are those of the loads with so many phase loads.", "quantifier": "all models, all numbers of phases, all voltages and lengths", "why_tests_cant": "it sums over the whole model, and one line without data decides about the result", "anchors": ["ditto/metrics/network_analysis.py:NetworkAnalyzer.length_lvXph_miles", "ditto/metrics/network_analysis.py:NetworkAnalyzer.length_mvXph_miles", "ditto/metrics/network_analysis.py:NetworkAnalyzer.number_of_loads_LV_Xph", "ditto/metrics/network_analysis.py:NetworkAnalyzer.number_of_loads_MV_3ph"]}
