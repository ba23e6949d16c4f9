# Formal model of NREL/ditto in Lean 4

## Layout

* `lean/Verif/Model/*.lean` – the executable model of the python code. Each definition cites the file and
  lines in `/repo` it models, and says what it simplifies.
* `lean/Verif/Spec/*.lean` – small independent specifications (reachability, path, nearest transformer, ...).
* `lean/Verif/Lemmas/*.lean` – helper lemmas.
* `lean/Verif/Props/*.lean` – the property theorems (named after the property: `C05_...`), each followed by
  `example`s that a concrete, non-trivial state meets its hypotheses. Negations with a concrete witness are
  named `..._violated`; theorems that prove only a part are named `..._partial`.

## Modelling conventions

* python floats are exact rationals `ℚ` (or, for impedances, elements of an arbitrary field). Rounding is not
  modelled. Unless a property is about it, `NaN`/`inf` are not modelled.
* exceptions are values: `Except PyErr α`. Branches that raise are modelled as such, never totalised away.
* python dicts are association lists in insertion order; python sets are lists compared up to membership.
* object identity: where aliasing matters (Store / Modifier) objects live in a heap indexed by `Nat`;
  where it does not, immutable records are used.
* networkx: `Graph` is a node list and an insertion-ordered edge list; the generic algorithms used by ditto
  (`bfs_edges`, `dfs_successors`, `predecessors`, ...) are modelled explicitly. `cycle_basis`,
  `all_simple_paths`, `shortest_path` are modelled by the specification networkx documents.

## Trusted base

Lean 4.33.0's kernel; the axioms `propext`, `Classical.choice`, `Quot.sound` (no others); the reading of
`/repo` that produced the model (the code itself is never run).

## Plan per property

| id | modelled | proof |
|---|---|---|
| C01-C03 | `convert_to_meters`, `convert_from_meters` (reader+writer), `unit_conversion` over ℚ | case split on units, rational arithmetic |
| C04 | `symmetrize` on ragged lists of rows | index lemmas on `List` |
| C05 | `kron_reduction` with the counters and the error branch | loop invariant; negative witness (code transposes the blocks) + partial theorem for symmetric input |
| C06 | `get_sequence_impedance_matrix` over a field with a primitive cube root of unity | `ring`/`linear_combination` |
| C07, C08 | `Store` with heap and name dictionary, operations as a step function | induction over histories |
| C09-C14 | `Modifier` over the heap, recursion bounded by python's recursion limit | induction on depth; negative witnesses where the code violates the property |
| C15-C23 | `Network` and the graph methods of `Store` | BFS loop invariant; refinement to reachability |
| C24-C29 | `ditto/consistency` | refinement to declarative predicates; negative witnesses |
| C30 | JSON writer and reader on a typed object model | round-trip; negative witnesses for dropped data |
| C31-C35 | `system_structure_modifier` | termination measures, loop invariants |
| C36-C40 | `NetworkAnalyzer` | induction over object lists, walks |
| C46-C49 | `compute_all_metrics`, `compute_all_metrics_per_feeder`, single metrics: one accumulator record; not modelled: positions, switch categories, impedances, secondary lengths, overloaded transformers, convex hull (their exceptions are a parameter `ext`) | invariants of the fold, sums over sublists |
| C41, C42 | CLI/Converter dispatch, default values | case analysis, induction |
| C50 | OpenDSS writer: `write_wiredata`, `write_linegeometry`, `write_linecodes` with the dictionaries of names; text kept as structured values | invariants of the naming loops; decimal names are injective |
| C51 | OpenDSS writer: the loop that groups objects by substation and feeder and writes, overwrites and redirects files; `write_bus_coords`; redirects of the master file; texts of objects abstract, set order a parameter | invariants of the grouping loop; partition of a list is a permutation |
| C52 | `write_loads`, `parse_loads`, both `phase_mapping`; any ordered field with square root; OpenDSS as hypothesis `Reports` | sums; the power factor determines Q up to the sign, and the sign |
| C53 | `write_capacitors`, `parse_capacitors`, `mode_mapping`; OpenDSS as hypothesis `ReportsCap` | case analysis on the number of phases; search of the control |
| C54 | `write_lines` and `parse_lines` for lines with codes; OpenDSS as hypothesis `ReportsLine` | matrices through lower triangles by `C04`; case analysis on devices |
| C55 | the wires of `parse_lines` with a geometry; OpenDSS as hypothesis `ReportsGeometry` on what C50 proves to be written | induction over the conductors with an invariant of the shared variable `data` |
| C56 | `set_switching_devices_ampacity`, random numbers as a schedule, fuel for the search | invariant of the loop over the lines; the search only meets connected lines; runs of the ring by induction on fuel |
| C57 | `replace_kth_switch_with_recloser`, drawn depths as a list | induction over the path of first successors; termination from the depth of the arborescence |
| C58 | `terminals_to_phases` | fold over the loads; the transformer by the walk of C38 |
| C59 | `set_feeder_headnodes`, strings as lists of characters | case analysis; splitting at `>` |
| C60 | `open_close_switches` from the text of the file | reading of printed entries by induction over the properties, then over the entries |
| C61 | `write_transformers`, `parse_transformers`, text as structured values, OpenDSS as the hypothesis `ReportsTrafo` | the numbers after the buses by induction over the phase windings; then the reader computes |
| C62 | `write_regulators`, `parse_regulators`, text as structured values, OpenDSS as the hypotheses `ReportsReg`, `ReportsNew` | inversion of writer and reader; the new transformer is read by the model of C61 |
| C63 | `get_phase_impedances`, `get_primitive_impedance_matrix`, Carson's equations, `distance`, `get_sequence_impedances`, over ℝ and ℂ | entrywise; for cables with the theorem of C05; positive definiteness of the real part for invertibility |
| C64 | `write_bus_coordinates` (text), `parse_nodes`; file as characters, `float` a parameter | invariants of the loop over all updates of the dictionary `buses`; reading of printed lines |
| C65 | circuit of `write_master_file`, `parse_power_source`, `parse_feeder_metadata` | induction over the loops with closed forms of the state; first occurrence in the dictionary of feeders |
| C66 | `set_nominal_voltages` with `set_names` and `model[...]`; voltages as a map from positions, updated in place | closed form of the loop over buses; each object is changed by one step of the loop over objects only |
| C67 | `write_storages`, `parse_storage`, `parse_generators` | inversion of the writer, closed form of the reader, sums over phases |
| C68 | `write_PVs`: the line of a PV system, the three sets of a feeder, the text of the controls as pieces | inversion; invariant of the sets over the loop; membership of pieces |
| C69 | `compute_spacing` with its table, longest distance, Heron's formula, rotation and choice of sides | geometry over the reals: coordinates along and across the longest side, isometries, tilt by arccos; counting known entries |
| C70 | `compute_matrix` with loops, reduction and conversion to ohms per meter, after `compute_spacing` | induction over the stored pairs; distances from C69; algebra of the elimination |
| C71 | the loop over the rows with its variables, words, stripping, dictionary of objects, included files, schedules; attributes checked against a schema | relation between rows and what they say; the row step depends on the words only; induction over the layout |
| C72 | rows written for nodes, attributes read for nodes, meters and triplex nodes | rows of the writer lie in the grammar of C71; the dictionary grows by one entry for each node; induction over the nodes |
| C73 | lines with their ends, splitting at commas, format lines, mapping of attributes to columns, free keys, the iterator shared by the loop and the helper | relation between lines and tables; induction over the layout; pigeonhole for free keys |
| C74 | lines with their ends, formats, declarations of networks, rows of sections, dictionaries, exceptions | relation between lines and networks; induction over the layout; invariants over all lines for the universal statements |
| C75 | dictionaries of rows as C73 gives them, loop variables with unbound and left-over values, powers over the reals, exceptions | relation between rows and what they say; invariant over the rows per section; sums of shares |
| C76 | header as a fold over lines, nodes and connectors as dictionaries with starred keys, exceptions | reading of tables with repeated first cells (C73_repeated_rows); induction over the rows |
| C77 | several queries with one file iterator, loop variables that may be unbound, exceptions, trait validation of phases and angle | invariant over slots of queries for mixed tables; search over the sections; induction over the rows |
| C78 | rows of text with commas, dictionary of equipment with numbers, merging by splitting at commas | invariant over the dictionary of rows per section; numbers of equipment from the final list |
| C79 | tables as in C73, dictionaries by section and equipment, assignments under swallowed exceptions | induction over the rows; the written rows of C78 as lists of cells |
| C80 | two kinds of tables in one dictionary, dictionaries by section and equipment, assignments under swallowed exceptions | induction over the tables and the rows |
| C81 | rows and numbered equipment of the written capacitors, composed with the reader of C80 | induction over the capacitors; the written tables are tables in the sense of C73 |
| C82 | rows and sections of the written loads, composed with the reader of C75 from the lines of the file | induction over the loads; the written tables are tables in the sense of C73 |
| C83 | all tables, settings with their types, equipment, windings, connections, impedances over ℂ, load tap changers | induction over the rows of the shared dictionary; products of matrices over ℂ; square roots over ℝ |
| C84 | `smallest_perimeter` and the choice of the number of panels | trial division gives the prime factors in order (induction on a measure); the greedy products against the convexity of x + n/x |
| C85 | two-winding and center tap transformers in `write_network_file` with the variables that keep their values from one transformer to the next, their equipment, and the reader of C83 | what a complete transformer writes does not depend on the variables; induction on the list with the equipment so far; impedances by the squares of their parts; the written tables as tables of the reader |
| C86 | the part for loads of `parse`: constant power, impedance, current, base power with schedules, shares, the new node; on top of the file reader of C71 | a relation for what a phase says; every branch of the reading gives a case of the relation; names are once in the dictionary; induction over the phases and the objects; Ohm's law for the impedance |
| C87 | `write_loads`, and the file reader of C71 and C86 | the statements of a load as a list; each row is a statement; look-up of the last value; shares by field arithmetic; reading back through the theorems of C71 and C86 |
| C88 | the part for capacitors of `parse`, and the file reader of C71 | a theorem about reading all objects of one class, and case analysis on the attributes of one capacitor |
| C89 | `write_capacitors`, and the readers of C71 and C88 | the statements of a capacitor as a list with distinct keys; look-up of each; reading back through the theorems of C71 and C88 |
| C90 | the parts for fuses and switches of `parse`, and the file reader of C71 | reading all objects of one class (C88); case analysis on the states; wires as permutation of the phases |
| C91 | `write_line_configurations` with the dictionaries of the class as state | invariant of the loop over the lines: new configurations, their numbers, the lines they come from; dictionaries as sets of entries; all arrangements of up to three phases; `Lays` of C71 |
| C92 | `write_lines`, and the file reader of C71 | the statements of a line as a list with distinct keys; induction over the lines; C91 for the configurations |
| C93 | `ToLowerCase`, `create_mapping`, the voltages of nodes and the loads of `parse` | invariant of the loop over the lines (the last line at a node counts); the rows that are kept as a filtered list; sums by induction over the loads |
| C94 | the table InstCapacitors in `parse` | the position in the text of phases as index of the loop, by induction; equality of lower and upper case texts character by character |
| C95 | the tables InstFeeders, InstSubstationTransformers and Node in `parse`; the set of other feeders is any list of its members | index of the loop over feeders by induction; a sorted list of different texts is determined by its members (order of texts is total) |
| C96 | the tables InstPrimaryTransformers and DevTransformers in `parse` | place of the transformer as index of the loop, by induction; place of the first type with the name; the square root is any function that gives roots |
| C97 | the tables InstRegulators and DevRegulators in `parse` | minimum of the values other than zero by induction; characters and their cases by arithmetic; last row with a name |
| C98 | the tables InstSection, DevConductors and DevConfig in `parse`, the loops over lines and wires | induction on the rows and on the letters; factors of the length units; last row with a name |
| C99 | the tables InstReclosers, InstSwitches, DevSwitches, InstFuses and InstProtectiveDevices in `parse` | filters of the tables by section; cases on the number of devices |
| C100 | the matrices in the loop over lines in `parse`, with the variable that keeps its value from one line to the next | letters in order are one of sixteen lists; field arithmetic; induction on the rows |
| C101 | the loops over InstLargeCust, InstGenerators and InstDGens in `parse` (the code before them is a text that is never run) | induction on the rows; at most one device with a name; dictionary of node voltages as for loads |
| C102 | `parse` of the CSV reader; the text of the file and the values that traits accept are parameters | invariant of the dictionary of objects of a row over the loops over columns, layers and list places; uniqueness of headers by splitting at dots and brackets |
| C103 | the part for transformers of `parse` of the GridLAB-D reader | the objects of the file as in C85; case analysis on the attributes of the configuration; field arithmetic for the resistances |
| C104 | `write_transformer_configurations` and `write_transformers` | dictionaries as lists without repeated keys; induction over the transformers with the dictionary of configurations; sorting of the phases; composition with what the reader says in C103 |
| C105 | the part for regulators of `parse` | loops over the phases with an invariant of what was looked at; composition with the parser of C71 |
| C106 | `write_regulator_configurations`, `write_regulators` | invariant of the loop over the regulators: numbered names, and settings of the phases as a fold over all windings of the regulators with the same items; rows as in C104 |
| C107 | `switch`, `bus`, `source` of the ePHASOR writer | rows by induction over lines, nodes and sources; lengths of the columns of the sheet Bus by counting letters |
| C108 | `load` of the ePHASOR writer | state of the loop (rows, current row, dictionary of names) with the invariant that the current row is the last one; what the phases do to a row by induction over the phases |
| C109 | `line` of the ePHASOR writer | rows of the lines by `mapM`; the cells of a matrix are the last number written to a column, which is shown to be the number of that pair; buses as in C107 |
| C110 | `transformer` of the ePHASOR writer with its two loops and the dictionary kept by the writer | invariants of both loops; for new texts of node and name the dictionary has just the positions of the single phase transformers, so that the second loop fills the rows in order |
| C111 | `write_timeseries`, the references in `write_loads` and `write_PVs` and the solve command of the master file | invariant of the loop: texts are those of the first series of each file in each group, datasets map files to their labels; the rest is C51 |
| C112 | the sets of voltages filled by all functions of the OpenDSS writer, the dictionaries of redirected files and the second loop of `write_master_file` | the dictionaries are folds over pairs of folder and file; paths of cleaned names can be taken apart as these have no slashes |
| C113 | the branch of the GridLAB-D reader for `triplex_line` with the variables that stay from earlier objects, and `compute_secondary_matrix` | real and complex numbers; the loops over three wires are evaluated step by step, and the reduced matrix gives the same voltages for all currents without voltage along the neutral |
| C114 | the branch of the GridLAB-D reader for `underground_line`: cables, distances, the places of two, three and four cables, the matrix and the units | real and complex numbers; the places of cables are those of overhead wires, turned and moved, for which C69 has the distances; Heron's formula gives the area of the triangle, so wrong factors give wrong distances |
| C115 | `parse_lines` and `configure_wire` of the CYME reader: the tables, how they are joined, the choice of the data, wires and matrices for devices, balanced and unbalanced lines; the matrix of lines with conductors by phases is a parameter | by induction over the entries with the phases of the entry before as state; wires by induction over the phases with the number of closed ones; matrices by ring |
| C116 | the branch `unbalanced_spacing_conf` of `parse_lines` of the CYME reader over the reals: positions, distances, radii and resistances with their defaults, rows that are kept, matrix, wires | by lists over ranges of indices, C63 for the entries, and injectivity of the logarithm for the violation |
| C117 | `fix_section_overlaps` of the CYME reader: the elements of a section with their nodes, the names and positions of new nodes; all other attributes are left out | by induction over the elements with the number of those before as state; decimal numbers are injective |
| C118 | `parse_network_equivalent` of the CYME reader: tables, joining with what is left of the regulators, the line and the loads with their numbers; the position (written to an attribute that lines do not have) and constants are left out | by cases over the phases and induction over the entries |
| C119 | `parse_dg` of the CYME reader: tables, photovoltaic systems, storages with phases and powers, generation models, converters and their settings; attributes that the classes do not have and `section_duplicates` are left out | the changes of the rows of a table as a fold for each object, induction over the tables |
| C120 | the part for lines of `write_network_file` of the CYME writer and its table of sections, without the columns for equipment and with the hash as a parameter | invariant over the lines written so far, pigeonhole principle for the stars |
| C121 | dictionaries for equipment of lines in the CYME writer, the columns that refer to them and the identifiers in the equipment file; data of any type | invariant that a table has exactly the pairs of names and data so far, induction over the lines |
| C122 | dictionaries of overhead lines and cables in the CYME writer and the numbers in their rows | evaluation of the nested loop on symbolic matrices for three phases, induction over ranges for balanced cables of any size |
| C123 | power sources and feeders in the CYME writer with the tables SOURCE, HEADNODES, SOURCE EQUIVALENT and SUBSTATION | induction over sources from the end and over the keys with a relation between substations before and after |
| C124 | nodes, buses and connectors in the CYME writer with their tables; the reader is that of C76 | reverse induction over the nodes, then C76 on the written tables, cell by cell; connectors of a bus by distinct names |
| C125 | photovoltaic systems and storages in the CYME writer with the tables CONVERTER, CONVERTER CONTROL SETTING, PHOTOVOLTAIC SETTINGS, DGGENERATIONMODEL, BESS SETTINGS and BESS; panels are those of C84 | cell by cell for rows; for the loop a relation that no row is lost, and an invariant of codes |
| C126 | the tables SUBNETWORKS and SUBNETWORK CONNECTIONS of the CYME writer; the reader is that of C76 | an invariant for the positions gathered by voltage; the value of each cell of a column that is not the last one for reading |
| C127 | fix_transformer_phase_path with the paths given as lists of edges; shortest paths are not modelled | induction on loads with the ends of the transformer as invariant; induction on the path for phases |
| C128 | Store.set_node_voltages over the network of C18, with the windings of objects by name | induction on the nodes with the theorems of C18 |
| C129 | the loop over the models in set_attributes and rebuild_digraph, attributes as functions of names | induction on the objects, last writer |
| C130 | compute_node_line_mapping, list_lines_betweeen_nodes for a given path and get_impedance_list_between_nodes | induction on lines, last writer, and on the path |
| C131 | furtherest_node_miles and furtherest_node_miles_clever with the distances given; trees by depth | the last node by distance and depth has degree one |
| C132 | length_lvXph_miles, length_mvXph_miles, number_of_loads_LV_Xph and number_of_loads_MV_3ph with the lines and loads of C36 | induction on the objects; the three classes are disjoint |
| C43 | `convert_length_unit` of the synergi reader | case split |
| C44 | `Modifier.merge` | as C12, footprint of the merge |
| C45 | `system_structure_modifier.set_nominal_voltages` | the groups are the components after cutting the transformers; induction over groups |

## What the proofs found: places where the code does not do what the property says

Each of these is a theorem `..._violated` with a concrete witness, beside a theorem for the part that holds.

* C05 Kron reduction of a non-symmetric matrix is wrong: the off-diagonal blocks are exchanged.
* C08 a failing constructor leaves the object in the store. C10, C12, C14: duplicated objects, raw lists, merged models.
* C18 `get_upstream_transformer` raises `KeyError` at an edge without equipment. C19, C20: see the notes in the manifest.
* C22, C23 open switches and positions after cleanup.
* C24, C25, C27, C28 the consistency checks with more than one or no source, shared names, parallel lines.
* C26 the phase check of transformers accepts a secondary that differs from the primary in some cases.
* C29 two transformers on a path, and an open tie switch (`KeyError`).
* C31 a node whose coordinates average to exactly 0 counts as not filled; nodes that share a name.
* C32 `set_nominal_voltages_recur` with an explicit source still starts with the voltage of the sourcebus; a node that is no object
  raises `KeyError`; a network deeper than python's recursion limit raises `RecursionError`.
* C35 a sourcebus that is not the end of any object raises `KeyError`; a second, unnamed one `TypeError`.
* C33 a substation whose `to_element` feeds nothing names nothing; a `PowerSource` below a substation raises `AttributeError` after
  part of the names were set.
* C34 `center_tap_load_preprocessing` is not repeatable: dropped phase loads get a share of the power too and are added up in the next
  run, so that the written power grows (C34_repeat_violated). One load without a transformer above it raises StopIteration and ends
  the call for all (C34_source_violated).
* C39 `split_network_into_feeders`: of two feeders with the same name only the first one is ever completed (StopIteration); given nodes
  that are not in the network are silently in no feeder network.
* C40 `tag_objects`: an unmapped object outside of the network raises `NetworkXError` and leaves later objects untagged; a predecessor
  without an object raises `KeyError`; a mapped `PowerSource` has no feeder to pass on; the time series of a load that gets its feeder
  from the nearest node keep the old one.
* C45 `set_nominal_voltages` pops a node out of each group between transformers, which then gets no voltage, and erases the known
  voltages above the first transformer.
* C37 the demand counts a load without power with the capacity of its transformer; the demand of the phases then does not add up if all
  phase loads are out of use; `total_demand` counts phase loads that are out of use.
* C46 the percentages of overhead lines are divided by the length of the lines of both voltage levels.
* C47 the "number of customers per transformer" counts loads.
* C48 a feeder listed twice is post-processed (meters to miles, W to kW) twice.
* C49 `lv_length_miles`/`mv_length_miles` compare the phase voltage with limits that `compute_all_metrics` compares with the line voltage;
  they raise `TypeError` for an unknown voltage; `percentage_load_LV_kW_phX` raises `ZeroDivisionError` without demand and counts phase
  loads that are out of use.
* C30 a JSON round trip turns `None` into the default value of the attribute (an unknown line length becomes 0), loses the phases of a
  storage, cannot read time series, and cannot write reactances that are `None`.
* C41 the JSON reader cannot be used from the command line: its input is taken as a configuration or rejected; `--warehouse` is ignored;
  metrics for an unknown output format are computed and dropped without a message, and without a format the command fails at the end.
* C42 default values are assigned on objects of all classes; values that the file does not have erase the ones of the model; the
  connection type of transformers is never assigned (the class name compared with does not exist); a second application turns the
  resistance matrices of objects without `impedance_matrix` into complex ones; a file without a section "Line" or its matrices fails.
* C50 names of wires that look like numbered names overwrite the data of others; a cable named like an overhead wire is written as an
  overhead wire; of three different lines with one nameclass the third gets the code of the second; with separate feeders the code of a
  line without nameclass may only be in the file of another feeder; code names that differ in special characters become one.
* C51 with `separate_feeders` but not `separate_substations` two feeders end in KeyError (the name of the substation is replaced by the
  cleaned one inside the loop over feeders); the same for a substation with capitals and two feeders; a group with only nameless objects
  ends in KeyError; names differing in special characters overwrite each other's files; joined keys collide; bus names merge.
* C52 the shares of the phases of a load are lost; ZIP coefficients are never written (they are looked up on the load, not on its phases);
  reactive power without active power becomes nan; low voltage delta loads lose phases; phases "s1", "s2" are written as "None".
* C53 the reactive power of capacitors of two phases is doubled by a round trip; only the first of several steps is read; the measured
  element gets one more "Line." each time; the mode activePower is lost.
* C54 lines shorter than one meter become one meter; breakers are read as switches unless their name says so; reclosers are not written;
  open lines without switch or breaker vanish; states of single phases and of breakers are lost; wires of fuses are not marked; neutral
  wires are lost; only the last line of a file keeps its intermediate points.
* C55 the total resistance of a wire is multiplied by the length of the line; its unit is not written; concentric neutrals are those of the
  last cable of the network; underground switches with several wires cannot be read; neutrals before phases shift the phases. When OpenDSS reports the names of the conductors as a list, only the first wire gets a name (`C55_names_violated`).
* C56 `None` as ampacity raises `TypeError`; devices at dead ends and at the source raise; the search need not end.
* C57 an edge without equipment lets the last switch count twice; connections without voltage raise.
* C58 of several loads the last one decides; with three windings a phase is added for each load.
* C59 the documented naming convention is not recognised; voltages are only set for reversed names; two `>` raise `ValueError`.
* C60 blank lines, double blanks and words without `=` raise; names with dots are cut; values are compared with case.
* C61 grounded primaries lose or gain phase windings; single phases in delta gain a phase; the secondary gets the phases of the primary; one emergency rating; the substation flag is lost; reactances of center taps change places and their default resistances are shifted; other transformers of three or more windings are not written and read with stale ends; duplicates have an empty name; a missing end raises `NameError`.
* C62 names get a prefix; bandwidth and voltage grow by a fifth at each round; losses raise `KeyError`; steps are lost; compensators are lost unless regulator and transformer have the same name; the monitored phase is lost for single phases; emergency ratings of new transformers grow by 1000; missing values shift the lists; a transformer that is not reported stops the reader; regulators without names raise `KeyError`.
* C63 `get_phase_impedances` takes resistances per foot instead of per mile; four wires or `kron_reduce=True` raise `AttributeError`; missing radii or resistances of overhead wires raise `NameError`; `get_sequence_impedances` raises for every input.
* C64 a neutral at the end of a line raises `ValueError`; transformers and loads of fewer than three phases without numbers raise `KeyError: None`; neutrals of transformers and loads are phases without name; buses with capitals become two nodes, one with the position and one with the phases; malformed lines of the coordinates file become a node without name; nodes without position are not written.
* C65 the position of the power source is the one of the last bus of the coordinates file; a text in that line raises `TraitError`; angle, rated power, emergency power, phases and name of a source are not written; a source without name raises `TypeError`; the transformer of a feeder in the feeder file is replaced by the substation's name; a blank line at the end of the feeder file raises `ValueError`.
* C66 a node whose name is also the name of a later object (for example a load named like its bus) stays without nominal voltage, and the base voltage of the bus overwrites the voltage of that object; a fourth winding gets no voltage.
* C67 rated and stored energy, reserve and powers of storages shrink by a factor 1000 per round trip; their buses are read with the numbers of phases and so are unknown; their names get the prefix of the class; phases and the sign of reactive power are lost; a storage without voltage raises `TypeError` although the code after it looks the voltage up at the bus; generators of three phases are read with phase C only; disabled generators are read.
* C68 one PV system with volt-watt control removes all volt-var controls of its feeder; only the last PV system of a feeder keeps a combined control, as the set is reset for each PV system; with all three kinds the combined control refers to a curve that is not defined; a stray `]` follows the volt-watt controls; single phase PV systems of 300 V or more are written with three phases; for voltages under 300 V the base of the feeder is twice that of the network.
* C69 with four wires and given heights, the first wire that is not an end of the longest distance is never placed under the line through these ends, and if it is on the line neither is the other one: a neutral under a crossarm is placed over it; a single wire without distance to the earth gets no position; default positions are 30 meters high, while the default height elsewhere is 30 feet.
* C70 mutual impedances of overhead lines use distances in meters in a formula for feet, so each is too large by 0.1213 * ln 3.28084 ohms per mile; lines without spacing get mutual impedances 0; a neutral without resistance or geometric mean radius makes the reading fail with ZeroDivisionError; configurations with `z11` to `z33` cannot be read (texts in a matrix of complex numbers).
* C71 statements of an object inside of another one are taken for the outer object; units after values are ignored (`length 1 mile` is one foot); a class or an attribute that is not in the schema, `object node{` without a blank, and an unnamed object without two ends abort the reading with AttributeError; unnamed lines between the same nodes replace each other; `all_gld_objects` belongs to the class, so objects of files read before appear again; includes inside of included files are not followed.
* C72 reading a node drops the last letter of its phases, whatever it is: phases ABC without neutral become A and B, and the quotation marks of `phases "ABCN"` make phases ", A, B, C and N; written names have a letter n more; unset voltages are written as 12470; a node without name is written without one, and the file cannot be read.
* C73 a table that is followed by another header without an empty line swallows the rows of the next table; rows with an equality sign in a cell are dropped; a row with the first cell of a row in an earlier table of the same kind replaces it; a header on the last line of a file raises StopIteration; values of the last column keep the end of the line; a first row that contains the word format spoils a table without format line.
* C74 the list of sections of every feeder is always empty (feeder_section_mapping is never filled); a network file that ends with its table of sections raises StopIteration, one with another header directly after it raises ValueError; only the first table of sections is read; when networkid is the last column of the feeder format, the name keeps the end of the line.
* C75 rows of customer loads with only reactive power are lost if the section has several rows; the number of users is that of the last row; generators (negative powers) are dropped; a leading power factor of an apparent power gives negative active power, of an active power the reactive power of the row before; an unknown type of values repeats the powers of the row before; connections of sections with capital letters are lost; the customer class of a second row is that of the row before it in the file; phases in the last column add a phase made of the end of the line.
* C76 a CYME version with two dots (8.2.1) ends the reading with UnboundLocalError; buses have no position if the table of the nodes starts with the format of buses; head nodes are in lower case and nodes are not, so with capital letters no feeder starts at a node of the model; nodes of the connections of substations are not found if they are in the last column.
* C77 no source read from CYME has phases or an angle; its rated power is in kVA; sources that are not in the substations of the equipment file are left out without warning; a source at a node without section gets the name and node of the source before it; after `update_header_mapping` the reader can no longer look for any object that was not updated (`TypeError`).
* C78 regulators on one section with different set points or equipment lose these in the merged row; a phase that two of them share is written twice, and next to a three-phase regulator no phases are written.
* C79 the bandwidths a CYME row gives for phases A and B are overwritten by that of the equipment; regulator winding voltages stay in kV; phases given as a number are taken for one phase; positions and compensators of regulators are never read.
* C80 a series and a shunt capacitor on one section of a CYME network: only the later one is read; voltages of capacitors in delta are multiplied by the square root of 3; the phase a capacitor monitors and its position are never read.
* C81 a CYME network with a capacitor that does not have all three phases is written with an empty cell, and reading it fails; rows of capacitors without voltage are shifted by one column; equipment without power has the voltage as its power; control by current is lost.
* C82 no load file that is written in the CYME format can be read back if it has a load with power or a center tap, nor can one without loads; rows of loads without a node are shifted by one column; center taps without shares lose their powers.
* C83 the reactance of a transformer with two windings read from a CYME file is a third of that of the zero sequence whatever the positive sequence is; transformers with three windings have no power, grounding transformers no connection, auto transformers and phase shifters no windings; a transformer whose equipment says `0` for the load tap changer gets one, with highest and lowest step swapped.
* C84 36 panels of a photovoltaic system are written to CYME files as 9 by 4 and not as 6 by 6, and so for infinitely many other numbers: the rectangle does not have the smallest perimeter.
* C85 The CYME writer converts the resistance of the second winding of a transformer with the wrong ratio of powers; it writes the ratio 0 for windings without resistance, which loses their reactance; it leaves the connection empty for zigzag windings, although it has codes for them; it gives transformers without reactance that of the transformer before; and the CYME reader raises a KeyError for every file with transformers that it wrote, because the column for load tap changers says 0 and there is no column for taps.
* C86 The GridLAB-D reader takes a purely reactive load for one without power; the same for constant impedances and currents without voltage in the file (the usual case); of a load with constant power and impedance only the power is kept; the shares of a ZIP load are f*pf and f*(1-pf), which is not the power factor pf, and its reactive power is 0; a base power that is the name of a schedule aborts the reading with IndexError; a product with an unknown schedule is 0 and further factors are ignored; the connection in delta is not read; triplex loads are not read at all.
* C87 The GridLAB-D writer does not write the phases of loads, and the reader makes phase loads only for the letters in `phases`: every load that ditto writes is read back without any power. The power factor pf it writes is P/(P+Q), not the cosine. A load and a node with the same name are one object for the reader, so that the node is lost. A ZIP load with a share of zero, e.g. only constant power, aborts the writing with ZeroDivisionError.
* C88 The GridLAB-D reader puts the parent of a capacitor into an unused variable, looks for `switch_A` instead of `switchA`, and reads limits so that a capacitor with limits for reactive power and only a high limit for the voltage gets this voltage as high and a reactive power as low limit.
* C89 The GridLAB-D writer writes `time_dela` instead of `time_delay`, which its own reader refuses; the high limit is written if there is a low one, as `None` if need be; the control mode is copied, although GridLAB-D has other words for it; a phase with switch 1 is written as OPEN.
* C90 The GridLAB-D reader leaves the loop over the phases of a switch without `status` after the first wire, because the missing attribute raises AttributeError inside of the loop: a closed three-phase switch becomes a single-phase one.
* C91 The dictionaries `line_configurations` and `line_configurations_name` of the GridLAB-D writer are attributes of the class. In the second file of a process known configurations are not written again, and the counter starts at 1 again, so that a line may refer to the configuration of another line. Impedances are written per meter although GridLAB-D, and the reader, take them per mile. A line with the initial (empty) impedance matrix raises IndexError.
* C92 The GridLAB-D writer writes `object overhead_line{` without blank; the reader then looks for a class `overhead_line{` and raises AttributeError: no network with a line can be converted to GridLAB-D and back.
* C93 The Synergi reader leaves out loads without active power although they may have reactive power, raises TypeError if no line meets the node of a load (such as behind a transformer), and takes the voltage of a load from the last line in the table at its node: a load with three phases gets the voltage of a lateral with one phase if that row comes later.
* C94 The Synergi reader takes the reactive powers of capacitors by the position in the text of phases, not by the phase: a capacitor on phase C alone gets the power of phase A, and ABCN raises IndexError. The control mode of every capacitor is the voltage.
* C95 The Synergi reader swaps X and Y of nodes, looks up the feeder of a node as if the node were a section, and gives a node at a section with phases ABC the single phase `ABC`. The voltages of feeders that are only named by sections depend on the order of a set.
* C96 The Synergi reader looks for the connections of transformer types in the row with the number of the transformer instead of the row of its type: with more transformers than types it raises KeyError, otherwise it takes the connection of another type. Transformers with three windings raise TraitError, and each winding gets the whole resistance.
* C97 The Synergi reader compares lower case phases of regulators with `N`, so a neutral becomes a phase with windings of its own; a blank between phases does too.
* C98 The Synergi reader divides the resistance of concentric neutrals by 160934 instead of 1609.34 and takes their sizes to be inches even in metric databases; a section without conductor name makes the whole database unreadable.
* C99 The Synergi reader cannot read a database where a section has two devices of one sort (`float(None)`), or one protective device of a known type (`lower` of a series).
* C100 The Synergi reader never resets its capacitance matrix: a line with one phase and no neutral, or with an unknown conductor, gets the matrix of the line before it, and the reader fails if it is the first line. The capacitance matrices ignore the zero sequence susceptance.
* C101 The Synergi reader cannot read a database with a photovoltaic in an unknown section (it prints a warning and then subscripts None), names generators with dashes instead of underscores, and gives distributed generators neither substations nor names of their own.
* C102 The CSV reader cannot read names that look like numbers (`.lower()` of a number) nor classes it does not import (PowerSource, Photovoltaic, Storage, Reactor, …), and cannot fill lists of plain values: `Node.phases[0]` sets an attribute called `phases[0]`.
* C103 The GridLAB-D reader takes the rating of the last phase as rated power of a transformer, puts the secondary windings of every center-tapped transformer on phases A and B, does not understand numeric `connect_type`s, and stores four reactances if only `impedance1` is given.
* C104 The GridLAB-D writer uses `i.reactance` where `PowerTransformer` only has `reactances`: every center-tapped transformer with reactances raises AttributeError. It writes `object transformer{` without blank, which the reader refuses, and `WYE_DELTA`, which GridLAB-D does not know.
* C105 The GridLAB-D reader sets `high_from` and `low_to` of regulators instead of `from_element` and `to_element`, uses the name `windings2` that does not exist, and asks `hasattr(obj, "nominal_voltage")`, which is always false.
* C106 The GridLAB-D writer puts the tap positions of all regulators with the same settings into one dictionary, writes `compensator_r` again where it should write `compensator_x`, and skips a regulator if the text of both ends joined by an underscore was seen before, also in another file.
* C107 The ePHASOR writer fills the angles of a node in the order a, b, c and the names in the order of its phases, so that the angles are exchanged if the phases are in another order; it marks only a node with the name sourcebus as slack.
* C108 The ePHASOR writer puts loads whose names only differ in a letter at the end into one row, but fills the columns from the first one again, so that only the last of them is kept; and then it numbers the next rows from that row on, so that other loads are overwritten. For a ZIP load it divides by the sum of the portions for a log message, also if that is zero.
* C109 The ePHASOR writer computes the susceptance of a whole line for a log message, so that a line with capacitances but no length stops it. Lines without a name all get the ID None, and the columns of sequence impedances stay empty.
* C110 The ePHASOR writer keeps the dictionary of single phase transformers from one file to the next, so that a second file lacks their rows; the key joins node and name without a separator; and the branch for combined transformers asks the dictionary for the node, which is never a key on purpose. Reactances are written in percent in a column of fractions, next to resistances that are divided by 100.
* C111 The text of scaled load shapes has a place named `interv` and is given `interval`, so that every scaled series raises `KeyError` after its file of scaled data has been written; the check for data that is there already looks at the file only, so a scaled series after an unscaled one is not written. Loads look for their series by the names of feeder and substation of the series even if files are not separated: since these names are empty texts by default (traitlets), such loads raise `KeyError` unless the names are set to `None`. `q_mult` is built and never used.
* C112 `write_master_file` opens the master file of every node with `is_substation_connection` in the folder of its feeder, also if files are not separated: there is no such folder then, and `FileNotFoundError` ends the writing. Nodes without feeder are skipped before the branch for substations, which is dead code. The files of wires, cables and geometries stay in the base folder and are not redirected by feeders.
* C113 The branch for `triplex_line` stores `conn2` for the neutral where `conn1` (just set to `conductor_N`) is meant. `insulation_thickness` and `diameter` are set at the variable `api_wire`, that is the last wire. `compute_secondary_matrix` divides by the impedance of the neutral, which is 0 if there is none. Its formula is for ohms per mile, feet and inches; it gets total ohms and meters.
* C114 The branch for `underground_line` computes the area of three cables with `range(n_entries)`, the first three of the four letters, so with a neutral two of the factors of Heron's formula are left out. X and Y of underground wires are in feet (the overhead branch divides by 3.28084). That is why the mutual impedances of underground lines are right and those of overhead lines are not (C70).
* C115 In the CYME reader a balanced line of one phase has the impedance z0/3 (should be (z0 + 2 z1)/3), and for an unbalanced line of one phase the reactance is multiplied by 10^-3 twice. X of wires is assigned a text and Y uses an undefined name inside of `try`, so wires have no positions; diameter and GMR stay in centimeters. `closedphase` is not in the list of columns for fuses and reclosers, so they are always closed; if it is the last column, the code ends with a newline and the reader stops with a `KeyError`. Any section with `load` in the name of a node is dropped (also `Download1`). Balanced lines always get a neutral. Two phases in the order BA have wires in this order but the matrix of AB. If a section has a line and a switch, one of them is lost. A section without phases gets the phases of the section that was read before it.
* C116 In the CYME reader lines with conductors by phases: the flag for the Kron reduction is never set, so the matrix of a line with a neutral has a row more than the line has phases. Positions are taken by the number of the phase in the section: for a line BC those of A and B. With two neutrals in the spacing the reader stops with an `IndexError`, with the neutral `NONE` (and no conductor DEFAULT) with a `KeyError`, with half a position with a `TypeError`. Without any position the matrix is that of the first phase, of size one.
* C117 `fix_section_overlaps` of the CYME reader puts the regulators of a section in a row with the same new node X_reg after each. As the reader makes one regulator for each phase, that of phase A goes from X to X_reg and those of B and C (if a line follows) from X_reg to X_reg: the phases B and C have no connection to X. New nodes are named by the first node only, so that two sections from the node X share X_sec_0. The list of photovoltaic systems is never filled, so they stay at the first node.
* C118 `parse_network_equivalent` of the CYME reader makes a load at the first node only if both the active and the reactive power are positive, so that loads with power factor one or capacitive loads are lost. For the load at the second node it adds up `loadfromkvar` instead of `loadtokvar`: it is lost if the load at the first node has no reactive power. A phase is only there if its resistance is not zero. `self.settings` is not emptied, so the class of the line is that of a regulator of the section. The position is written to `position` (lines have `positions`).
* C119 `parse_dg` of the CYME reader: `section_feeder_mapping` is asked for the key of the table, so a second photovoltaic system or storage of a section (key with a star) ends in a `ValueError`; a generation model of another device (a storage) in a `KeyError`; the number of a curve is assigned to a text trait, which fails silently; `reserve` gets `maximumsoc` instead of `minimumsoc`; codes of phases are texts and `phase_mapping` compares them with integers, so that "7" is a phase "7"; `eqphase` is not mapped at all; efficiencies are read from a key that is not there or written to attributes that storages do not have; `min_powerfactor` and `watt_powerfactor_curve` are not attributes of photovoltaic systems.
* C120 Sections of lines in the CYME writer: the name of a parallel line is tested before it is replaced by its hash, so long names occur twice; `ff_name` keeps its value from the object before, so lines without a feeder get into a foreign network or end in an `UnboundLocalError`; names are only distinct within a feeder although "a_b"–"c" and "a"–"b_c" make the same name; a state that is `None` is written as open; `split("ation_")[1]` cuts the names of substations and ends in an `IndexError` for feeders whose names contain "substation".
* C121 Equipment of lines in the CYME writer: a new unnamed conductor is stored as "conductor_1" and referred to as "1"; an unnamed cable is stored as "cable1" and referred to as "cable_1", later as "cable_cable1"; the first unnamed overhead line is stored as 1 and referred to as "line_1"; a second conductor of the same name is ignored, while a second cable, overhead line or device of the same name replaces the first one, whose lines refer to the new data; the search for equal data adds a column for each name that it finds.
* C122 Impedances in CYME equipment files: the susceptance of a phase is stored as "BA" and looked up as "Ba", so it is always written as zero; the mutual values of B and A are stored under "BA" if B comes first and never written; the data of a cable come from the last nonzero entries of its matrix; a capacitance matrix that is smaller than the impedance matrix stops the writer with a TypeError.
* C123 Sources in the CYME writer: the loop over feeders assigns node and network of a source only if a feeder has it as head node, so a second source repeats the first one and a first one is an UnboundLocalError; a source bus without connecting element leaves an empty dictionary, which is a KeyError later; sources at one node share an identifier in the equipment file; missing data of feeders are written as "None".
* C124 Nodes in the CYME writer: a node without positions is written at 0,0 and comes back there; buses come after all other nodes; the mapping from connectors to sections looks at dropped elements too and does not know the new names of parallel sections (C120); of several elements at one index only the last is kept.
* C125 Photovoltaic systems and storages in the CYME writer: storages use a variable that only photovoltaic systems set, so a model with storages only cannot be written; the writer reads attributes powerfactor and watt_powerfactor_curve that the class does not have, so systems with these controls, which the readers of CYME and Synergi set, stop it; a comma is missing in rows of generation models; the energy of storages comes back divided by 1000.
* C126 Substations in the CYME writer: the name is cut out of the name of the network with split("ation_")[1], so a substation named station_1 becomes st, and none of its connections are written; a feeder named with substation but not ation_ ends in an IndexError; nodes with drop are written as connections, which the reader cannot find.
* C127 fix_transformer_phase_path: the low side of a transformer is unknown if the load is connected to the transformer itself, so such transformers stay backwards; high_phases is read again before the new phase is set, thus it is that of the line before; transformers with two phases are not adjusted, against the description of the function.
* C128 Store.set_node_voltages: the KeyError is only caught around the access to the windings, but get_upstream_transformer raises it for every node between the power source and the first transformer, and NetworkXError for nodes that are not connected; the name None is looked up when there is no transformer above, which finds objects without name; None is written if the winding has no voltage.
* C129 Network.set_attributes: objects between the same two nodes write to one edge, which then has attributes of both; the attributes of the power source are not on its edge, since only the direction from the connecting element to the device is considered.
* C130 NetworkAnalyzer.get_impedance_list_between_nodes: lines without impedance matrix are skipped, so that sums over the path are too small without notice; compute_node_line_mapping forgets all but the last of parallel lines in the same direction.
* C131 NetworkAnalyzer.furtherest_node_miles_clever: on networks with loops the result can be too small, and if no node has degree one the maximum of an empty list raises ValueError; furtherest_node_miles raises NetworkXNoPath as soon as one node is not connected.
* C132 NetworkAnalyzer.length_lvXph_miles and length_mvXph_miles compare the voltage of every line without testing it for None; they count wires instead of phases.
