{
 "claims": [
  {
   "property": "C01",
   "status": "proved",
   "theorems": [
    "Verif.Detect.C01_detect_first",
    "Verif.Detect.C01_not_detected",
    "Verif.Detect.C01_only_matching_run",
    "Verif.Detect.C01_read"
   ],
   "note": ""
  },
  {
   "property": "C02",
   "status": "proved",
   "theorems": [
    "Verif.Detect.C02_propagates",
    "Verif.Detect.C02_read_propagates"
   ],
   "note": ""
  },
  {
   "property": "C03",
   "status": "proved",
   "theorems": [
    "Verif.Detect.C03_sorted_stable",
    "Verif.Detect.C03_history"
   ],
   "note": "numpy stable argsort modelled by a stable sort"
  },
  {
   "property": "C04",
   "status": "partial",
   "theorems": [
    "Verif.Detect.C04_fails",
    "Verif.Detect.C04_pair_partial"
   ],
   "note": "violated by the code: once the list is cached the bare list is returned; proved for histories without earlier success"
  },
  {
   "property": "C05",
   "status": "partial",
   "theorems": [
    "Verif.Detect.C05_fails",
    "Verif.Detect.C05_reachable_partial",
    "Verif.Detect.C05_bladed_partial",
    "Verif.Detect.C05_exceptions",
    "Verif.Detect.C05_dead",
    "Verif.Detect.C05_candidates"
   ],
   "note": "violated for .00X (two formats) and doc; all other extensions proved reachable"
  },
  {
   "property": "C06",
   "status": "partial",
   "theorems": [
    "Verif.FileBase.C06_name_history",
    "Verif.FileBase.C06_read",
    "Verif.FileBase.C06_write",
    "Verif.FileBase.C06_failed_call_keeps_name",
    "Verif.FileBase.C06_empty_fails",
    "Verif.FileBase.C06_name_fails",
    "Verif.FileBase.C06_write_fails",
    "Verif.FileBase.C06_classes_partial",
    "Verif.FileBase.C06_classes_write_partial"
   ],
   "note": "Proved for the base class. Violated by overriding classes: six raise NameError on empty files, Tecplot and VTK do not use the remembered name."
  },
  {
   "property": "C07",
   "status": "proved",
   "theorems": [
    "Verif.FastDict.C07_refines",
    "Verif.FastDict.C07_last_write",
    "Verif.FastDict.C07_frame",
    "Verif.FastDict.C07_set_order"
   ],
   "note": ""
  },
  {
   "property": "C08",
   "status": "partial",
   "theorems": [
    "Verif.FastDict.C08_fails",
    "Verif.FastDict.C08_absent_ignored",
    "Verif.FastDict.C08_present_partial"
   ],
   "note": "violated: assignments to absent keys are silently lost"
  },
  {
   "property": "C09",
   "status": "proved",
   "theorems": [
    "Verif.FastDict.C09_get",
    "Verif.FastDict.C09_shape",
    "Verif.FastDict.C09_keys",
    "Verif.FastDict.C09_keys_grow"
   ],
   "note": ""
  },
  {
   "property": "C10",
   "status": "partial",
   "theorems": [
    "Verif.FastDict.C10_fails",
    "Verif.FastDict.C10_visits_all_partial"
   ],
   "note": "violated for every file: iteration ends in IndexError"
  },
  {
   "property": "C11",
   "status": "partial",
   "theorems": [
    "Verif.FastLine.C11_fails",
    "Verif.FastLine.C11_value_fails",
    "Verif.FastLine.C11_scalar_partial",
    "Verif.FastLine.C11_list_partial"
   ],
   "note": "label and value round trip proved under a well-formedness condition; the description comes back with a leading dash (violated), unquoted multi-word strings and one-element lists are not preserved"
  },
  {
   "property": "C12",
   "status": "partial",
   "theorems": [
    "Verif.FastLine.C12_fails",
    "Verif.FastLine.C12_partial",
    "Verif.FastLine.C12_lines",
    "Verif.FastBridge.C12_reader",
    "Verif.FastBridge.C12_reach"
   ],
   "note": "violated for descriptions ending with dashes and trailing blank lines"
  },
  {
   "property": "C13",
   "status": "proved",
   "theorems": [
    "Verif.FastLine.C13_line",
    "Verif.FastLine.C13_file"
   ],
   "note": ""
  },
  {
   "property": "C14",
   "status": "partial",
   "theorems": [
    "Verif.FastLine.C14_fails",
    "Verif.FastLine.C14_empty_fails",
    "Verif.FastLine.C14_read_partial",
    "Verif.FastLine.C14_exact",
    "Verif.FastLine.C14_write_partial"
   ],
   "note": "violated: an unterminated list is returned with a warning, an empty list is read back as one empty channel"
  },
  {
   "property": "C15",
   "status": "partial",
   "theorems": [
    "Verif.FastTable.C15_fails",
    "Verif.FastTable.C15_num_partial",
    "Verif.FastTable.C15_values_partial",
    "Verif.FastTable.C15_mix_partial",
    "Verif.FastTable.C15_count"
   ],
   "note": "row count, order and widths proved; violated for values: rows longer than the first are cut silently"
  },
  {
   "property": "C53",
   "status": "partial",
   "theorems": [
    "Verif.FastLine.C53_fails",
    "Verif.FastLine.C53_partial"
   ],
   "note": "violated by END of ... lines"
  },
  {
   "property": "C54",
   "status": "partial",
   "theorems": [
    "Verif.FastLine.C54_fails",
    "Verif.FastLine.C54_partial"
   ],
   "note": "violated by a blank first line and by unclosed quotes"
  },
  {
   "property": "C55",
   "status": "partial",
   "theorems": [
    "Verif.FastTable.C55_fails",
    "Verif.FastTable.C55_num_partial",
    "Verif.FastTable.C55_mix"
   ],
   "note": "violated for num tables when the first row is longer than the header"
  },
  {
   "property": "C16",
   "status": "partial",
   "theorems": [
    "Verif.FastBin.C16_fails",
    "Verif.FastBin.C16_partial"
   ],
   "note": "proved for 1..163840 columns, every chunking; violated (ZeroDivisionError) for 0 or more columns"
  },
  {
   "property": "C17",
   "status": "partial",
   "theorems": [
    "Verif.FastBin.C17_fails",
    "Verif.FastBin.C17_partial"
   ],
   "note": "byte-level round trip proved for units of at most 8 characters and a non-empty first unit; violated otherwise and for time-only data"
  },
  {
   "property": "C18",
   "status": "partial",
   "theorems": [
    "Verif.FastBin.C18_fails",
    "Verif.FastBin.C18_range",
    "Verif.FastBin.C18_round_partial",
    "Verif.FastBin.C18_exact_partial",
    "Verif.FastBin.C18_file"
   ],
   "note": "exact arithmetic proved, any rounding proved when nothing is clipped; violated with single precision offsets"
  },
  {
   "property": "C19",
   "status": "partial",
   "theorems": [
    "Verif.FastBin.C19_fails",
    "Verif.FastBin.C19_partial"
   ],
   "note": "violated: the file is truncated before a name that is too long is found"
  },
  {
   "property": "C20",
   "status": "partial",
   "theorems": [
    "Verif.FastBin.C20_fails",
    "Verif.FastBin.C20_partial",
    "Verif.FastBin.C20_forms_partial",
    "Verif.FastBin.C20_short_fails",
    "Verif.FastBin.C20_file_partial",
    "Verif.FastBin.C20_ascii_silent"
   ],
   "note": "violated for columns without unit and for one-letter names directly followed by the unit"
  },
  {
   "property": "C56",
   "status": "partial",
   "theorems": [
    "Verif.FastBin.C56_fails",
    "Verif.FastBin.C56_partial"
   ],
   "note": "violated for non-uniform time steps"
  },
  {
   "property": "C21",
   "status": "proved",
   "theorems": [
    "Verif.Mann.C21_roundtrip",
    "Verif.Mann.C21_location",
    "Verif.Mann.C21_injective"
   ],
   "note": "float32 storage is a parameter with dec(enc x)=x"
  },
  {
   "property": "C22",
   "status": "proved",
   "theorems": [
    "Verif.Mann.C22_last_three",
    "Verif.Mann.C22_rejected"
   ],
   "note": "ASCII digits"
  },
  {
   "property": "C57",
   "status": "partial",
   "theorems": [
    "Verif.Mann.C57_fails",
    "Verif.Mann.C57_partial"
   ],
   "note": "violated: files that are too long are read without complaint; too short ones are refused"
  },
  {
   "property": "C58",
   "status": "proved",
   "theorems": [
    "Verif.Mann.C58_y",
    "Verif.Mann.C58_z",
    "Verif.Mann.C58_t"
   ],
   "note": "rational arithmetic"
  },
  {
   "property": "C27",
   "status": "proved",
   "theorems": [
    "Verif.Mann.C27_closest"
   ],
   "note": "the Mann and TurbSim methods have the same body; rational coordinates"
  },
  {
   "property": "C23",
   "status": "partial",
   "theorems": [
    "Verif.TurbSim.C23_fails",
    "Verif.TurbSim.C23_partial",
    "Verif.TurbSim.C23_negative"
   ],
   "note": "byte-level round trip for at least two points per direction; boxes with a single y, z or t cannot be written"
  },
  {
   "property": "C24",
   "status": "proved",
   "theorems": [
    "Verif.TurbSim.C24_value",
    "Verif.TurbSim.C24_file",
    "Verif.TurbSim.C24_round",
    "Verif.TurbSim.C24_single_fails"
   ],
   "note": "real arithmetic as stated; with single precision offsets the int16 value can wrap (C24_single_fails)"
  },
  {
   "property": "C25",
   "status": "partial",
   "theorems": [
    "Verif.TurbSim.C25_fails",
    "Verif.TurbSim.C25_partial"
   ],
   "note": "violated for a single time step: the field is deleted before the error"
  },
  {
   "property": "C26",
   "status": "partial",
   "theorems": [
    "Verif.TurbSim.C26_fails",
    "Verif.TurbSim.C26_partial",
    "Verif.TurbSim.C26_lines_partial",
    "Verif.TurbSim.C26_export_partial",
    "Verif.TurbSim.C26_repeat_partial"
   ],
   "note": "violated: removeMean writes through a view of the field"
  },
  {
   "property": "C59",
   "status": "proved",
   "theorems": [
    "Verif.TurbSim.C59_scale"
   ],
   "note": "new_std/old_std is a parameter (no square roots in the model)"
  },
  {
   "property": "C60",
   "status": "partial",
   "theorems": [
    "Verif.TurbSim.C60_fails",
    "Verif.TurbSim.C60_partial"
   ],
   "note": "violated for times not starting at 0 and y not centred"
  },
  {
   "property": "C28",
   "status": "partial",
   "theorems": [
    "Verif.Hawc2.C28_fails",
    "Verif.Hawc2.C28_zero_fails",
    "Verif.Hawc2.C28_partial",
    "Verif.Hawc2.C28_readOnly",
    "Verif.Hawc2.C28_out_of_range",
    "Verif.Hawc2.C28_grow_partial"
   ],
   "note": "violated: new channels of a later request are mapped to wrong columns; holds when the first request covers the later ones, and in read-only mode"
  },
  {
   "property": "C29",
   "status": "partial",
   "theorems": [
    "Verif.Hawc2.C29_fails",
    "Verif.Hawc2.C29_growth",
    "Verif.Hawc2.C29_partial",
    "Verif.Hawc2.C29_units"
   ],
   "note": "violated: the prefix is added again at each export"
  },
  {
   "property": "C30",
   "status": "proved",
   "theorems": [
    "Verif.HawcAe.C30_roundtrip",
    "Verif.HawcAe.C30_add",
    "Verif.HawcAe.C30_columns",
    "Verif.HawcAe.C30_add_many",
    "Verif.HawcAe.C30_add_given"
   ],
   "note": "float parsing and formatting are parameters; entries have to survive %.17e and %d"
  },
  {
   "property": "C31",
   "status": "partial",
   "theorems": [
    "Verif.HawcAe.C31_chord",
    "Verif.HawcAe.C31_pcset",
    "Verif.HawcAe.C31_fails",
    "Verif.HawcAe.C31_partial"
   ],
   "note": "chord, thickness and profile set: every radius; radius_ae violated at radius 0"
  },
  {
   "property": "C32",
   "status": "partial",
   "theorems": [
    "Verif.HawcAe.C32_fails",
    "Verif.HawcAe.C32_coeff_fails",
    "Verif.HawcAe.C32_partial"
   ],
   "note": "violated: %.8f and .15e lose digits; holds for numbers that survive the formats"
  },
  {
   "property": "C33",
   "status": "partial",
   "theorems": [
    "Verif.HawcAe.C33_fails",
    "Verif.HawcAe.C33_partial",
    "Verif.HawcAe.C33_range_partial"
   ],
   "note": "violated for a single profile; holds for strictly increasing thicknesses"
  },
  {
   "property": "C34",
   "status": "proved",
   "theorems": [
    "Verif.Htc.C34_kept",
    "Verif.Htc.C34_lookup",
    "Verif.Htc.C34_written"
   ],
   "note": "Any sequence of additions: entries kept in order, distinct keys, lookup by key, written under the original names."
  },
  {
   "property": "C35",
   "status": "partial",
   "theorems": [
    "Verif.Htc.C35_fails",
    "Verif.Htc.C35_atTime_fails",
    "Verif.Htc.C35_time_fails",
    "Verif.Htc.C35_comment_fails",
    "Verif.Htc.C35_partial",
    "Verif.Htc.C35_norm_partial"
   ],
   "note": "Violated: end comments gain tabs, output_at_time comments crash the writer, valueless lines of output sections and comments below empty lines are lost. Proved for all other trees of any depth and width, also up to the order of main bodies."
  },
  {
   "property": "C36",
   "status": "partial",
   "theorems": [
    "Verif.Htc.C36_fails",
    "Verif.Htc.C36_output_fails",
    "Verif.Htc.C36_partial",
    "Verif.Htc.C36_named_partial"
   ],
   "note": "Violated for a trailing empty line (IndexError). Proved for all lines without such empty lines, overflowing values and output_at_time headers."
  },
  {
   "property": "C37",
   "status": "partial",
   "theorems": [
    "Verif.Vtk.C37_fails",
    "Verif.Vtk.C37_points",
    "Verif.Vtk.C37_partial",
    "Verif.Vtk.C37_hexahedron"
   ],
   "note": "Violated for the grid of one point (IndexError). Proved for every other grid."
  },
  {
   "property": "C38",
   "status": "partial",
   "theorems": [
    "Verif.Vtk.C38_empty_fails",
    "Verif.Vtk.C38_pixel_fails",
    "Verif.Vtk.C38_lagrange_fails",
    "Verif.Vtk.C38_partial",
    "Verif.Vtk.C38_blocks_partial",
    "Verif.Vtk.C38_types"
   ],
   "note": "Violated for no cells and for writable types without a number of nodes in the table; proved for all meshes of the 25 fixed-size types. Encoding of the integers is not modelled."
  },
  {
   "property": "C61",
   "status": "partial",
   "theorems": [
    "Verif.Vtk.C61_fails",
    "Verif.Vtk.C61_partial"
   ],
   "note": "Violated: cell data are dropped. The cells are proved."
  },
  {
   "property": "C39",
   "status": "partial",
   "theorems": [
    "Verif.Bladed.C39_fails",
    "Verif.Bladed.C39_units_fails",
    "Verif.Bladed.C39_partial",
    "Verif.Bladed.C39_file",
    "Verif.Bladed.C39_frame_partial"
   ],
   "note": "Column mapping proved; violated when labels rounded to two decimals coincide (series dropped) or units are missing."
  },
  {
   "property": "C40",
   "status": "partial",
   "theorems": [
    "Verif.Bladed.C40_fails",
    "Verif.Bladed.C40_names_fails",
    "Verif.Bladed.C40_skip_fails",
    "Verif.Bladed.C40_replace_fails",
    "Verif.Bladed.C40_partial",
    "Verif.Bladed.C40_unread"
   ],
   "note": "Violated: one merged length drops all other data sets, equal categories replace each other, unreadable files are skipped. Proved otherwise."
  },
  {
   "property": "C62",
   "status": "partial",
   "theorems": [
    "Verif.Bladed.C62_fails",
    "Verif.Bladed.C62_partial"
   ],
   "note": "Violated for files of equal length and different steps."
  },
  {
   "property": "C41",
   "status": "proved",
   "theorems": [
    "Verif.Flex.C41_read",
    "Verif.Flex.C41_accepts",
    "Verif.Flex.C41_short"
   ],
   "note": "On the bytes of the file; single precision arithmetic is a parameter. A trailing odd byte is ignored; version 12 and unknown versions raise."
  },
  {
   "property": "C42",
   "status": "partial",
   "theorems": [
    "Verif.Tecplot.C42_fails",
    "Verif.Tecplot.C42_partial",
    "Verif.Tecplot.C63_cycle"
   ],
   "note": "Violated by every title: an equals sign is added in each cycle. The growth is proved, the rest of the file is kept."
  },
  {
   "property": "C63",
   "status": "partial",
   "theorems": [
    "Verif.Tecplot.C63_name_fails",
    "Verif.Tecplot.C63_nodata_fails",
    "Verif.Tecplot.C63_small_fails",
    "Verif.Tecplot.C63_wide_fails",
    "Verif.Tecplot.C63_cycle",
    "Verif.Tecplot.C63_partial",
    "Verif.Tecplot.C63_row",
    "Verif.Tecplot.C63_lines"
   ],
   "note": "Violated for units in brackets, tables with one row or column, rows over 73 characters and files without data. Proved otherwise."
  },
  {
   "property": "C64",
   "status": "partial",
   "theorems": [
    "Verif.Tecplot.C64_fails",
    "Verif.Tecplot.C64_multi_fails",
    "Verif.Tecplot.C64_partial"
   ],
   "note": "Violated: zones are written as Python dictionaries, several settings on a line are misread. Reading of lines with one setting is proved."
  },
  {
   "property": "C43",
   "status": "partial",
   "theorems": [
    "Verif.Deck.C43_fails",
    "Verif.Deck.C43_directory_fails",
    "Verif.Deck.C43_prefix_fails",
    "Verif.Deck.C43_ice_fails",
    "Verif.Deck.C43_ad14_fails",
    "Verif.Deck.C43_none_fails",
    "Verif.Deck.C43_partial",
    "Verif.Deck.C43_off",
    "Verif.Deck.C43_on",
    "Verif.Deck.C43_links_partial",
    "Verif.Deck.C43_files_partial"
   ],
   "note": "Violated for ServoDyn in every deck with AeroDyn (the reference is that of AeroDyn), for other directories, prefixes with a directory, ice, AeroDyn 14 and decks without structure. Proved for all other modules."
  },
  {
   "property": "C44",
   "status": "partial",
   "theorems": [
    "Verif.Graph.C44_fails",
    "Verif.Graph.C44_props_fails",
    "Verif.Graph.C44_partial",
    "Verif.Graph.C44_refused"
   ],
   "note": "Violated for elements without properties (raises), with properties as list, or different at the ends. Proved for all other graphs of two-node elements, every n."
  },
  {
   "property": "C45",
   "status": "partial",
   "theorems": [
    "Verif.Graph.C45_fails",
    "Verif.Graph.C45_attribute_fails",
    "Verif.Graph.C45_partial"
   ],
   "note": "Violated: caches are not cleared by additions, and one query raises before any sorting. Proved for all other histories."
  },
  {
   "property": "C47",
   "status": "partial",
   "theorems": [
    "Verif.AsciiComp.C47_equivalence",
    "Verif.AsciiComp.C47_blanks",
    "Verif.AsciiComp.C47_fails",
    "Verif.AsciiComp.C47_partial",
    "Verif.AsciiComp.C47_delete",
    "Verif.AsciiComp.C47_lines"
   ],
   "note": "Equivalence and blanks proved for every content. Violated: texts that differ in their line structure are equal when a bar character stands for the line break, and the empty file equals one blank line."
  },
  {
   "property": "C65",
   "status": "partial",
   "theorems": [
    "Verif.AsciiComp.C65_fails",
    "Verif.AsciiComp.C65_partial",
    "Verif.AsciiComp.C65_binary",
    "Verif.AsciiComp.C65_exact",
    "Verif.AsciiComp.C65_control_fails"
   ],
   "note": "Violated by every first line with a tab, and by control characters 14 and 31. Proved for all other texts."
  },
  {
   "property": "C52",
   "status": "partial",
   "theorems": [
    "Verif.StepWind.C52_partial",
    "Verif.StepWind.C52_fails",
    "Verif.StepWind.C52_times_fails",
    "Verif.StepWind.C52_errors",
    "Verif.StepWind.C52_default"
   ],
   "note": "Exact rationals in place of floating point. Violated when the range is not a multiple of the step and when the time step exceeds the hold time; proved otherwise."
  },
  {
   "property": "C50",
   "status": "partial",
   "theorems": [
    "Verif.Csv.C50_sep",
    "Verif.Csv.C50_partial",
    "Verif.Csv.C50_fresh_partial",
    "Verif.Csv.C50_fails",
    "Verif.Csv.C50_names_fails",
    "Verif.Csv.C50_quoting_partial"
   ],
   "note": "Violated: names are not written below free header lines; numeric names are re-read as data. Proved otherwise; the number syntax is a parameter."
  },
  {
   "property": "C51",
   "status": "partial",
   "theorems": [
    "Verif.Csv.C51_names_partial",
    "Verif.Csv.C51_generated_partial",
    "Verif.Csv.C51_units_fails",
    "Verif.Csv.C51_header_fails",
    "Verif.Csv.C51_single_fails",
    "Verif.Csv.C51_header_partial"
   ],
   "note": "Violated by unit lines, comment headers and single columns; the decision is proved otherwise."
  },
  {
   "property": "C66",
   "status": "partial",
   "theorems": [
    "Verif.Csv.C66_names_partial",
    "Verif.Csv.C66_generated_partial",
    "Verif.Csv.C66_fails"
   ],
   "note": "Violated: the separator and names of the first file are kept. Proved for files of the same separator and names."
  },
  {
   "property": "C46",
   "status": "partial",
   "theorems": [
    "Verif.Summary.C46_fails",
    "Verif.Summary.C46_repeat_fails",
    "Verif.Summary.C46_other_fails",
    "Verif.Summary.C46_scale_partial",
    "Verif.Summary.C46_last_partial",
    "Verif.Summary.C46_json_partial"
   ],
   "note": "Violated: the default scale, nodes and elements are those of the object read last, and each export renumbers the elements again. Proved for a given scale, and for the object read last."
  },
  {
   "property": "C48",
   "status": "partial",
   "theorems": [
    "Verif.Writers.C48_fails",
    "Verif.Writers.C48_partial",
    "Verif.TurbSim.C48_turbsim_fails",
    "Verif.TurbSim.C48_turbsim_partial"
   ],
   "note": "Violated: writers that fail after opening the file lose its content; the safe states are characterised for the text writers, HAWC2 and TurbSim. Excel, NetCDF and Parquet writers are not modelled; binary FAST output see C19."
  },
  {
   "property": "C49",
   "status": "partial",
   "theorems": [
    "Verif.Polar.C49_fails",
    "Verif.Polar.C49_unusable_fails",
    "Verif.Polar.C49_success_partial",
    "Verif.Polar.C49_partial",
    "Verif.Polar.C49_single_partial",
    "Verif.FastTypes.C49_keys_fails"
   ],
   "note": "Violated by failing writes of several tables (labels stay shortened). Proved for successful writes (up to the numbers of rows) and for one table."
  },
  {
   "property": "C67",
   "status": "partial",
   "theorems": [
    "Verif.Writers.C67_fails",
    "Verif.Writers.C67_partial"
   ],
   "note": "Violated by every linearization object; proved for the other writers with something to write."
  },
  {
   "property": "C68",
   "status": "proved",
   "theorems": [
    "Verif.Summary.C68_nodesDisp",
    "Verif.Summary.C68_default",
    "Verif.Summary.C68_sorted"
   ],
   "note": "Exact numbers; np.argsort is a parameter that returns a permutation."
  },
  {
   "property": "C69",
   "status": "partial",
   "theorems": [
    "Verif.Summary.C69_fails",
    "Verif.Summary.C69_partial"
   ],
   "note": "Violated when the nodes are not listed from bottom to top; proved otherwise (strictly increasing heights)."
  },
  {
   "property": "C70",
   "status": "partial",
   "theorems": [
    "Verif.AsciiOut.C70_fails",
    "Verif.AsciiOut.C70_description_fails",
    "Verif.AsciiOut.C70_names_fails",
    "Verif.AsciiOut.C70_time_fails",
    "Verif.AsciiOut.C70_partial",
    "Verif.AsciiOut.C70_again_partial"
   ],
   "note": "Violated: the description is not written, one row comes back as a vector, blanks and brackets in names and units, time not first. Proved otherwise."
  },
  {
   "property": "C71",
   "status": "partial",
   "theorems": [
    "Verif.AsciiOut.C71_fails",
    "Verif.AsciiOut.C71_partial",
    "Verif.AsciiOut.C71_sec",
    "Verif.AsciiOut.C71_vector"
   ],
   "note": "Violated for one row of data and for missing units. Proved otherwise."
  },
  {
   "property": "C72",
   "status": "partial",
   "theorems": [
    "Verif.Csv.C72_fails",
    "Verif.Csv.C72_partial",
    "Verif.Csv.C72_negative_partial"
   ],
   "note": "Violated when a comment line is not among the first lines: the first line of the file is lost. Proved when the comment lines come first and for names inside the comments."
  },
  {
   "property": "C73",
   "status": "partial",
   "theorems": [
    "Verif.FastTypes.C73_fails",
    "Verif.FastTypes.C73_adBlade_partial",
    "Verif.FastTypes.C73_edBlade_partial",
    "Verif.FastTypes.C73_polar_one_partial",
    "Verif.FastTypes.C73_polar_partial"
   ],
   "note": "Violated by objects of the generic class (tower, SubDyn, HydroDyn, ...), whose counts are written as they are. Proved for blades and polars."
  },
  {
   "property": "C74",
   "status": "proved",
   "theorems": [
    "Verif.FastTypes.C74_names"
   ],
   "note": "The text itself is a parameter; stated on the items it is made of."
  },
  {
   "property": "C75",
   "status": "partial",
   "theorems": [
    "Verif.FastTypes.C75_fails",
    "Verif.FastTypes.C75_partial",
    "Verif.FastTypes.C75_class_stays"
   ],
   "note": "Violated: the object keeps the class of its first file. Proved when the first file had the same class or no item. Not for ExtPtfm files."
  },
  {
   "property": "C76",
   "status": "partial",
   "theorems": [
    "Verif.FastTypes.C76_fails",
    "Verif.FastTypes.C76_partial"
   ],
   "note": "Violated by every object EDBladeFile(filename): its second item is replaced by a text and nearly every access raises. Proved for the other classes."
  },
  {
   "property": "C77",
   "status": "partial",
   "theorems": [
    "Verif.FastTypes.C77_fails",
    "Verif.FastTypes.C77_polar_fails",
    "Verif.FastTypes.C77_base_fails",
    "Verif.FastTypes.C77_lines_fails",
    "Verif.FastTypes.C77_partial"
   ],
   "note": "Violated: setting it on FASTInputFile always raises, the comment of polars is a property object, the generic class has none, further lines are lost. Proved for one-line comments of blades."
  },
  {
   "property": "C78",
   "status": "partial",
   "theorems": [
    "Verif.FastTypes.C78_fails",
    "Verif.FastTypes.C78_polar_fails",
    "Verif.FastTypes.C78_partial",
    "Verif.FastTypes.C78_one_partial"
   ],
   "note": "Violated: ADBladeFile() cannot be written (np.gradient of no node); with unsteady data the tables after the first have no InclUAdata item. Proved for all other items, any number of tables."
  },
  {
   "property": "C79",
   "status": "partial",
   "theorems": [
    "Verif.ExtPtfm.C79_fails",
    "Verif.ExtPtfm.C79_more_fails",
    "Verif.ExtPtfm.C79_fewer_fails",
    "Verif.ExtPtfm.C79_write",
    "Verif.ExtPtfm.C79_partial"
   ],
   "note": "Violated: nothing is checked on the loading, whose number of rows must agree with time and time step; numbers that fill their sixteen characters run into each other. Proved otherwise."
  },
  {
   "property": "C80",
   "status": "proved",
   "theorems": [
    "Verif.FastBin.C80_1",
    "Verif.FastBin.C80_2",
    "Verif.FastBin.C80_3",
    "Verif.FastBin.C80_4",
    "Verif.FastBin.C80_other"
   ],
   "note": "float decoding is a parameter; no channel or more than 163840 channels are refused (C16)."
  },
  {
   "property": "C81",
   "status": "partial",
   "theorems": [
    "Verif.FastRead.C81_partial",
    "Verif.FastRead.C81_fails"
   ],
   "note": "Violated by files that announce zero airfoil files and list one: the same line is read for ever. Proved for all texts without such an announcement."
  },
  {
   "property": "C82",
   "status": "partial",
   "theorems": [
    "Verif.FastRead.C82_partial",
    "Verif.FastRead.C82_fails"
   ],
   "note": "Violated by nodal lists of channels (the label grows) and several polars in the generic class (unreadable after saving). Proved for every sequence of the other items, any size, under a limit on comments."
  },
  {
   "property": "C83",
   "status": "partial",
   "theorems": [
    "Verif.FastRead.C83_partial",
    "Verif.FastRead.C83_ad14_fails",
    "Verif.FastRead.C83_coords_fails",
    "Verif.FastRead.C82_fails"
   ],
   "note": "Violated by every AeroDyn 14 polar (cannot be saved), by coordinates and by several tables (cannot be read again). Proved for one table without coordinates."
  },
  {
   "property": "C84",
   "status": "partial",
   "theorems": [
    "Verif.FastRead.C84_partial",
    "Verif.FastRead.C84_fails"
   ],
   "note": "Violated: HydroDyn files grow by seven characters per cycle, lists of one file get a blank line per cycle and end up unreadable. Proved for the files of C82."
  },
  {
   "property": "C85",
   "status": "partial",
   "theorems": [
    "Verif.FastRead.C85_partial",
    "Verif.FastRead.C85_fails"
   ],
   "note": "Violated by names with blanks; proved for all others."
  },
  {
   "property": "C86",
   "status": "proved",
   "theorems": [
    "Verif.FastRead.C86_num",
    "Verif.FastRead.C86_num_refused",
    "Verif.FastRead.C86_nodecnt_refused",
    "Verif.FastRead.C86_mix",
    "Verif.FastRead.C86_separator_refused"
   ],
   "note": "numbers are read by a parameter; units are stated for one notation per line."
  },
  {
   "property": "C87",
   "status": "proved",
   "theorems": [
    "Verif.FastRead.C87",
    "Verif.FastRead.C87_value"
   ],
   "note": "numbers are read by a parameter; at most 35% of comments; sections of BeamDyn, SubDyn channels and HydroDyn stiffness lines are in C82."
  },
  {
   "property": "C88",
   "status": "proved",
   "theorems": [
    "Verif.FastRead.C88_refused",
    "Verif.FastRead.C88_read"
   ],
   "note": "numbers are read by a parameter."
  },
  {
   "property": "C89",
   "status": "proved",
   "theorems": [
    "Verif.Tecplot.C89"
   ],
   "note": "numbers are read by a parameter; names are stated for those kept by the reader (underscore before brackets)."
  },
  {
   "property": "C90",
   "status": "proved",
   "theorems": [
    "Verif.Tecplot.C90_nosection",
    "Verif.Tecplot.C90_novars",
    "Verif.Tecplot.C90_early",
    "Verif.Tecplot.C90_width"
   ],
   "note": ""
  },
  {
   "property": "C91",
   "status": "proved",
   "theorems": [
    "Verif.FastAD14.C91",
    "Verif.FastAD14.C91_detect"
   ],
   "note": "numbers are read by a parameter; a negative number of tables is not modelled. With several tables the header values of the tables after the first are read as part of the label (as stated: the words that follow the first number)."
  },
  {
   "property": "C92",
   "status": "proved",
   "theorems": [
    "Verif.Lin.C92"
   ],
   "note": "numbers are read by a parameter; lists have at least one point; the title of a matrix has no second colon."
  },
  {
   "property": "C93",
   "status": "partial",
   "theorems": [
    "Verif.Lin.C93_fails",
    "Verif.Lin.C93_matrix_partial",
    "Verif.Lin.C93_marker_partial",
    "Verif.Lin.C93_header_partial"
   ],
   "note": "the code violates it: a file which ends inside a list of operating points is read with fewer points, one which ends after the title of a matrix gives rows without columns, one which ends before the line on Jacobians gives nothing at all (C93_fails). Proved: a file ending inside a matrix after one row or more, one with 32 lines or more without the line on Jacobians, one ending before one of the five counts are refused."
  },
  {
   "property": "C94",
   "status": "proved",
   "theorems": [
    "Verif.Rosco.C94",
    "Verif.Rosco.C94_frames"
   ],
   "note": "numbers are read and printed by parameters."
  },
  {
   "property": "C95",
   "status": "proved",
   "theorems": [
    "Verif.Rosco.C95"
   ],
   "note": "numbers are read by a parameter."
  },
  {
   "property": "C96",
   "status": "partial",
   "theorems": [
    "Verif.Rosco.C96_fails",
    "Verif.Rosco.C96_partial"
   ],
   "note": "violated by every object: the name now is not defined in the module, the existing file is replaced by one line of title (C96_fails). Proved: if now were defined, every object of consistent sizes would be read back as printed."
  },
  {
   "property": "C97",
   "status": "partial",
   "theorems": [
    "Verif.Rosco.C97_fails",
    "Verif.Rosco.C97_partial"
   ],
   "note": "violated by short texts (UnboundLocalError), texts with the word Power (TypeError) or TSR (ValueError) in their first lines. Proved for texts whose first twelve lines have none of the keywords."
  },
  {
   "property": "C98",
   "status": "proved",
   "theorems": [
    "Verif.Lin.C98",
    "Verif.Lin.C98_names"
   ],
   "note": "the text of each label is the code's own list of replacements, copied into the model; only the absence of blanks and commas is proved about it."
  },
  {
   "property": "C99",
   "status": "proved",
   "theorems": [
    "Verif.FlexPro.C99"
   ],
   "note": "numbers are read by parameters; every set has a thickness and an angle or more."
  },
  {
   "property": "C100",
   "status": "proved",
   "theorems": [
    "Verif.FlexPro.C100"
   ],
   "note": "numbers are read by parameters; files are cut at ends of lines."
  },
  {
   "property": "C101",
   "status": "partial",
   "theorems": [
    "Verif.FlexPro.C101_fails",
    "Verif.FlexPro.C101_partial"
   ],
   "note": "violated by a row of one number, which is read as four equal numbers (numpy repeats it); all other wrong rows are proved refused."
  },
  {
   "property": "C102",
   "status": "partial",
   "theorems": [
    "Verif.FlexPro.C102_fails",
    "Verif.FlexPro.C102_partial"
   ],
   "note": "violated by two polars with the same printed thickness in a set: the first is lost; proved if the printed thicknesses of each set differ."
  },
  {
   "property": "C103",
   "status": "proved",
   "theorems": [
    "Verif.FlexBld.C103"
   ],
   "note": "numbers are read by parameters; one section or more."
  },
  {
   "property": "C104",
   "status": "proved",
   "theorems": [
    "Verif.FlexBld.C104",
    "Verif.FlexBld.C104_last"
   ],
   "note": "numbers are read by parameters; files are cut at ends of lines."
  },
  {
   "property": "C105",
   "status": "partial",
   "theorems": [
    "Verif.FlexBld.C105_fails",
    "Verif.FlexBld.C105_partial",
    "Verif.FlexBld.C105_aero_partial"
   ],
   "note": "violated by a row of one number, which is read as a row of equal numbers (numpy repeats it); all other rows that are too short or have a word that is no number are proved refused."
  },
  {
   "property": "C106",
   "status": "proved",
   "theorems": [
    "Verif.Yaml.C106"
   ],
   "note": "numbers are read by parameters; keys are distinct and do not start with a dash."
  },
  {
   "property": "C107",
   "status": "partial",
   "theorems": [
    "Verif.Yaml.C107_fails",
    "Verif.Yaml.C107_partial"
   ],
   "note": "violated by a row of one element, which is repeated (numpy); proved for rows of two elements or more."
  },
  {
   "property": "C108",
   "status": "partial",
   "theorems": [
    "Verif.Yaml.C108_fails",
    "Verif.Yaml.C108_partial"
   ],
   "note": "violated if the first row has only integers and another row has a number with a fraction: ValueError; proved if the first row has a number which is no integer."
  },
  {
   "property": "C109",
   "status": "proved",
   "theorems": [
    "Verif.Yaml.C109",
    "Verif.Yaml.C109_end"
   ],
   "note": "the exceptions are IndexError (wrong format string of the message) and UnboundLocalError."
  },
  {
   "property": "C110",
   "status": "proved",
   "theorems": [
    "Verif.St.C110"
   ],
   "note": "numbers are read by parameters (`float`, `int`); sets may be announced without rows, except the last."
  },
  {
   "property": "C111",
   "status": "proved",
   "theorems": [
    "Verif.St.C111_short",
    "Verif.St.C111_text",
    "Verif.St.C111_ragged",
    "Verif.St.C111_again",
    "Verif.St.C111_header",
    "Verif.St.C111_width",
    "Verif.St.C111_none"
   ],
   "note": "a file without sets raises UnboundLocalError."
  },
  {
   "property": "C112",
   "status": "proved",
   "theorems": [
    "Verif.St.C112"
   ],
   "note": "rows of the set have one number at least; the kind of exception depends on what remains. A file cut between two sets has fewer sets and is read."
  },
  {
   "property": "C113",
   "status": "partial",
   "theorems": [
    "Verif.St.C113_fails",
    "Verif.St.C113_partial"
   ],
   "note": "violated: the later main set replaces the earlier one; proved: the sets found under a number are those of the last main set of this number."
  },
  {
   "property": "C114",
   "status": "partial",
   "theorems": [
    "Verif.St.C114_fails",
    "Verif.St.C111_width"
   ],
   "note": "violated: only the columns of the last set of the file are counted, and toDataFrame of the object raises ValueError; proved for the last set."
  },
  {
   "property": "C115",
   "status": "partial",
   "theorems": [
    "Verif.St.C115_fails",
    "Verif.St.C115_partial",
    "Verif.St.C115_file"
   ],
   "note": "violated by numbers whose text fills the 15 characters of a column (negative numbers with an exponent of three digits), which run into the number before; proved when the text of every number starts with a blank (so the check of the first lines is passed too, if the first main set has a set)."
  },
  {
   "property": "C116",
   "status": "proved",
   "theorems": [
    "Verif.St.C116",
    "Verif.St.C116_names"
   ],
   "note": ""
  },
  {
   "property": "C117",
   "status": "proved",
   "theorems": [
    "Verif.St.C117_all",
    "Verif.St.C117_between",
    "Verif.St.C117_outside",
    "Verif.St.C117_nearest",
    "Verif.St.C117_missing"
   ],
   "note": "exact arithmetic; radii increase."
  },
  {
   "property": "C118",
   "status": "partial",
   "theorems": [
    "Verif.St.C118_fails",
    "Verif.St.C118_partial"
   ],
   "note": "violated: the functions are made for the columns of the last set of the file, and `pitch` gives `x_sh` for a set of the other form; proved for the first six columns, which are the same in both forms."
  },
  {
   "property": "C119",
   "status": "proved",
   "theorems": [
    "Verif.St.C119",
    "Verif.St.C119_one",
    "Verif.St.C119_errors"
   ],
   "note": "one name at a time."
  },
  {
   "property": "C120",
   "status": "proved",
   "theorems": [
    "Verif.St.C120_symmetric",
    "Verif.St.C120_rigid",
    "Verif.St.C120_row"
   ],
   "note": "exact arithmetic in any field; divisions by zero are excluded."
  },
  {
   "property": "C121",
   "status": "proved",
   "theorems": [
    "Verif.St.C121"
   ],
   "note": "exact arithmetic over the rationals."
  },
  {
   "property": "C122",
   "status": "partial",
   "theorems": [
    "Verif.St.C122_fails",
    "Verif.St.C122_partial"
   ],
   "note": "violated along x: `ROY` is overwritten with the value for the other direction (line 188); proved along y, and along x when I_x/k_y equals I_y/k_x."
  },
  {
   "property": "C123",
   "status": "proved",
   "theorems": [
    "Verif.St.C123_ends",
    "Verif.St.C123_rigid"
   ],
   "note": "exact arithmetic over the rationals."
  },
  {
   "property": "C124",
   "status": "proved",
   "theorems": [
    "Verif.FastFrame.C124"
   ],
   "note": "tables have different labels; the cells of a row are as many as the labels."
  },
  {
   "property": "C125",
   "status": "partial",
   "theorems": [
    "Verif.FastFrame.C125_fails",
    "Verif.FastFrame.C125_width",
    "Verif.FastFrame.C124"
   ],
   "note": "violated by a table with more numbers in its rows than names: it is read and toDataFrame raises ValueError; proved for tables with as many numbers as labels."
  },
  {
   "property": "C126",
   "status": "proved",
   "theorems": [
    "Verif.FastFrame.C126",
    "Verif.FastFrame.C126_missing"
   ],
   "note": "exact arithmetic in any field."
  },
  {
   "property": "C127",
   "status": "proved",
   "theorems": [
    "Verif.FastFrame.C127"
   ],
   "note": ""
  },
  {
   "property": "C128",
   "status": "proved",
   "theorems": [
    "Verif.FastFrame.C128",
    "Verif.FastFrame.C128_none"
   ],
   "note": "exact arithmetic in any field."
  },
  {
   "property": "C129",
   "status": "proved",
   "theorems": [
    "Verif.FastFrame.C129",
    "Verif.FastFrame.C129_range"
   ],
   "note": "exact arithmetic; `np.sin`, `np.cos`, `np.pi` are parameters without laws."
  },
  {
   "property": "C130",
   "status": "proved",
   "theorems": [
    "Verif.FastFrame.C130",
    "Verif.FastFrame.C130_tables"
   ],
   "note": "exact arithmetic; `np.sin`, `np.cos`, `np.pi` are parameters without laws."
  },
  {
   "property": "C131",
   "status": "partial",
   "theorems": [
    "Verif.FastFrame.C131_fails",
    "Verif.FastFrame.C131_without",
    "Verif.FastFrame.C130"
   ],
   "note": "violated: without `Cd0` a KeyError is raised, for every such file; proved for files with this data."
  },
  {
   "property": "C132",
   "status": "proved",
   "theorems": [
    "Verif.FastFrame.C132",
    "Verif.FastFrame.C132_width"
   ],
   "note": ""
  },
  {
   "property": "C133",
   "status": "proved",
   "theorems": [
    "Verif.Hawc2Sel.C133",
    "Verif.Hawc2Sel.C133_binary"
   ],
   "note": ""
  },
  {
   "property": "C134",
   "status": "proved",
   "theorems": [
    "Verif.Hawc2Sel.C134"
   ],
   "note": ""
  },
  {
   "property": "C135",
   "status": "partial",
   "theorems": [
    "Verif.Hawc2Sel.C135_fails",
    "Verif.Hawc2Sel.C135_cut",
    "Verif.Hawc2Sel.C135_partial"
   ],
   "note": "violated: a file cut after the first sample of its last channel is read and the sample is given to all scans; proved for all other lengths."
  },
  {
   "property": "C136",
   "status": "proved",
   "theorems": [
    "Verif.Hawc2Sel.C136",
    "Verif.Hawc2Sel.C136_line"
   ],
   "note": ""
  },
  {
   "property": "C137",
   "status": "partial",
   "theorems": [
    "Verif.Hawc2Sel.C137_fails",
    "Verif.Hawc2Sel.C137_partial"
   ],
   "note": "violated: names are cut after thirty characters; the rest is proved for units of at most eleven characters."
  },
  {
   "property": "C138",
   "status": "partial",
   "theorems": [
    "Verif.Hawc2Sel.C138_fails",
    "Verif.Hawc2Sel.C138_zero",
    "Verif.Hawc2Sel.C137_partial"
   ],
   "note": "violated: a last time printed as zero divides by zero in the reader, for every such result; proved for other times."
  },
  {
   "property": "C139",
   "status": "proved",
   "theorems": [
    "Verif.Hawc2Sel.C139"
   ],
   "note": ""
  },
  {
   "property": "C140",
   "status": "proved",
   "theorems": [
    "Verif.Hawc2Sel.C140"
   ],
   "note": ""
  },
  {
   "property": "C141",
   "status": "partial",
   "theorems": [
    "Verif.Hawc2Sel.C141_few",
    "Verif.Hawc2Sel.C141_fails",
    "Verif.Hawc2Sel.C141_word",
    "Verif.Hawc2Sel.C141_unit",
    "Verif.Hawc2Sel.C140"
   ],
   "note": "violated: with fewer than three channels the file cannot be read, in general; with the word \"channel\" in the first channels these are lost; with the unit in a description the file cannot be read. Proved for the other results (C140)."
  },
  {
   "property": "C142",
   "status": "proved",
   "theorems": [
    "Verif.DeckRead.C142"
   ],
   "note": "Module by module; where a name leads is a function of the specification."
  },
  {
   "property": "C143",
   "status": "proved",
   "theorems": [
    "Verif.DeckRead.C143"
   ],
   "note": "ElastoDyn names may be absolute; the others are the subject of C150."
  },
  {
   "property": "C144",
   "status": "proved",
   "theorems": [
    "Verif.DeckRead.C144"
   ],
   "note": "Damaged polars give None."
  },
  {
   "property": "C145",
   "status": "proved",
   "theorems": [
    "Verif.DeckRead.C145"
   ],
   "note": "SubDyn is left out, see C147."
  },
  {
   "property": "C146",
   "status": "proved",
   "theorems": [
    "Verif.DeckRead.C146"
   ],
   "note": "The hypotheses say what the files must hold for the reader not to fail on them."
  },
  {
   "property": "C147",
   "status": "partial",
   "theorems": [
    "Verif.DeckRead.C147_fails",
    "Verif.DeckRead.C147_partial"
   ],
   "note": "Violated: SubDyn is read as kind HD (278), so asking for SD does not give it, and its path replaces that of HydroDyn in inputfiles. Holds when all kinds are asked for."
  },
  {
   "property": "C148",
   "status": "partial",
   "theorems": [
    "Verif.DeckRead.C148_fails",
    "Verif.DeckRead.C148_partial"
   ],
   "note": "Violated for every deck whose AeroDyn 14 file is there: the polars are taken from AeroDyn15, which is None (119), or ADBlFile(1) is missing (110). Holds when the file is missing, unused or not asked for."
  },
  {
   "property": "C149",
   "status": "partial",
   "theorems": [
    "Verif.DeckRead.C149_fails",
    "Verif.DeckRead.C149_partial"
   ],
   "note": "Violated: modules switched off by the second model keep the files of the first. Holds for modules that are switched on."
  },
  {
   "property": "C150",
   "status": "partial",
   "theorems": [
    "Verif.DeckRead.C150_fails",
    "Verif.DeckRead.C150_partial"
   ],
   "note": "Violated: a quoted absolute name starts with a quote when joined (110, 120, 291), so it is taken as relative. Holds for ElastoDyn (C143) and when the AeroDyn file is in the directory of the main file."
  },
  {
   "property": "C151",
   "status": "proved",
   "theorems": [
    "Verif.TurbSimTS.C151"
   ],
   "note": ""
  },
  {
   "property": "C152",
   "status": "proved",
   "theorems": [
    "Verif.TurbSimTS.C152"
   ],
   "note": "The text of a number must start with a blank: `{:16.8e}` leaves none for a negative number with an exponent of three digits."
  },
  {
   "property": "C153",
   "status": "partial",
   "theorems": [
    "Verif.TurbSimTS.C153_fails",
    "Verif.TurbSimTS.C153_partial"
   ],
   "note": "Violated for every such file: it is read back with one empty header line. Everything else is kept."
  },
  {
   "property": "C154",
   "status": "proved",
   "theorems": [
    "Verif.TurbSimTS.C154",
    "Verif.TurbSimTS.C154_counts"
   ],
   "note": ""
  },
  {
   "property": "C155",
   "status": "partial",
   "theorems": [
    "Verif.TurbSimTS.C155_fails",
    "Verif.TurbSimTS.C155_partial"
   ],
   "note": "Violated: a single number on a point line is taken as both coordinates. All other wrong lines are refused."
  },
  {
   "property": "C156",
   "status": "proved",
   "theorems": [
    "Verif.TurbSimTS.C156",
    "Verif.TurbSimTS.C156_width"
   ],
   "note": ""
  },
  {
   "property": "C157",
   "status": "proved",
   "theorems": [
    "Verif.TurbSimTS.C157"
   ],
   "note": ""
  },
  {
   "property": "C158",
   "status": "proved",
   "theorems": [
    "Verif.MannTurb.C158",
    "Verif.MannTurb.C158_base"
   ],
   "note": "Numbers too large for four bytes (OverflowError) are not modelled."
  },
  {
   "property": "C159",
   "status": "proved",
   "theorems": [
    "Verif.MannTurb.C159",
    "Verif.MannTurb.C158"
   ],
   "note": "Exact arithmetic."
  },
  {
   "property": "C160",
   "status": "proved",
   "theorems": [
    "Verif.MannTurb.C160"
   ],
   "note": "Exact arithmetic; `addU` is a number."
  },
  {
   "property": "C161",
   "status": "proved",
   "theorems": [
    "Verif.MannTurb.C161"
   ],
   "note": "Exact arithmetic up to the storage."
  },
  {
   "property": "C162",
   "status": "partial",
   "theorems": [
    "Verif.MannTurb.C162_fails",
    "Verif.MannTurb.C162_partial"
   ],
   "note": "Violated: dimensions of size one are repeated. All other wrong dimensions are refused."
  },
  {
   "property": "C163",
   "status": "proved",
   "theorems": [
    "Verif.MannTurb.C163"
   ],
   "note": ""
  },
  {
   "property": "C164",
   "status": "partial",
   "theorems": [
    "Verif.MannTurb.C164_fails",
    "Verif.MannTurb.C164_partial"
   ],
   "note": "Violated: the tower (`zTwr`, `uTwr`) of the box read before is kept. The result depends on nothing else."
  },
  {
   "property": "C165",
   "status": "proved",
   "theorems": [
    "Verif.MannTurb.C165"
   ],
   "note": "The values, not their texts."
  },
  {
   "property": "C166",
   "status": "partial",
   "theorems": [
    "Verif.MannTurb.C166_fails",
    "Verif.MannTurb.C166_partial"
   ],
   "note": "Violated when closest grid points have coordinates with the same text, for instance 0 and 0.25. Holds when the texts differ."
  },
  {
   "property": "C167",
   "status": "proved",
   "theorems": [
    "Verif.BladedRead.C167_bladed_sensor"
   ],
   "note": "For the texts of lines as specified by Describes; int and float of texts are parameters."
  },
  {
   "property": "C168",
   "status": "proved",
   "theorems": [
    "Verif.BladedRead.C168_bladed_refuse"
   ],
   "note": "For every text that is read."
  },
  {
   "property": "C169",
   "status": "proved",
   "theorems": [
    "Verif.BladedRead.C169_bladed_binary"
   ],
   "note": "Two and three dimensions; decoding of four and eight bytes is a parameter. In three dimensions with as many units as channels."
  },
  {
   "property": "C170",
   "status": "proved",
   "theorems": [
    "Verif.BladedRead.C170_bladed_table"
   ],
   "note": "Two and three dimensions, at least one step, as many units as channels, distinct labels."
  },
  {
   "property": "C171",
   "status": "partial",
   "theorems": [
    "Verif.BladedRead.C171_partial",
    "Verif.BladedRead.C171_fails"
   ],
   "note": "Violated: a format of whole numbers (I*4) is decoded as four-byte floats. Proved for R*4 and R*8 (two dimensions)."
  },
  {
   "property": "C172",
   "status": "partial",
   "theorems": [
    "Verif.BladedRead.C172_partial",
    "Verif.BladedRead.C172_fails"
   ],
   "note": "Violated: with a wrong count of numbers, or an unreadable text, the table has nan everywhere and there is no error. Proved for the right count."
  },
  {
   "property": "C173",
   "status": "partial",
   "theorems": [
    "Verif.BladedRead.C173_partial",
    "Verif.BladedRead.C173_fails"
   ],
   "note": "Violated: the words of a line behind the units that is not AXISLAB become further units, and shift those of the files that follow. Proved when each file has as many units as channels."
  },
  {
   "property": "C174",
   "status": "partial",
   "theorems": [
    "Verif.BladedRead.C174_partial",
    "Verif.BladedRead.C174_fails"
   ],
   "note": "Violated: a % in the name of a folder is replaced too. Proved for names without %."
  },
  {
   "property": "C175",
   "status": "partial",
   "theorems": [
    "Verif.BladedRead.C175_partial",
    "Verif.BladedRead.C175_fails"
   ],
   "note": "Violated: a text file of a single step is refused (ValueError, or TypeError for one channel). Proved for two steps or more."
  },
  {
   "property": "C176",
   "status": "proved",
   "theorems": [
    "Verif.BModes.C176_bmodes",
    "Verif.BModes.C176_refuse"
   ],
   "note": ""
  },
  {
   "property": "C177",
   "status": "proved",
   "theorems": [
    "Verif.BModes.C177_bmodes_tables"
   ],
   "note": ""
  },
  {
   "property": "C178",
   "status": "partial",
   "theorems": [
    "Verif.BModes.C178_partial",
    "Verif.BModes.C178_fails"
   ],
   "note": "Violated: a file that ends between two rows, or above the table, gives the shorter (or empty) table without an error. Proved for a file that ends within a row."
  },
  {
   "property": "C179",
   "status": "proved",
   "theorems": [
    "Verif.Hs2.C179_pwr"
   ],
   "note": "For headers with a space behind each number."
  },
  {
   "property": "C180",
   "status": "partial",
   "theorems": [
    "Verif.Hs2.C180_partial",
    "Verif.Hs2.C180_fails"
   ],
   "note": "Violated: a file of one row gives IndexError. Proved for two rows or more."
  },
  {
   "property": "C181",
   "status": "partial",
   "theorems": [
    "Verif.Hs2.C181_partial",
    "Verif.Hs2.C181_fails"
   ],
   "note": "Violated: a first line without # gives a NameError (the name of the exception in the message is not bound). Proved for a wrong number of columns."
  },
  {
   "property": "C182",
   "status": "partial",
   "theorems": [
    "Verif.Hs2.C182_partial",
    "Verif.Hs2.C182_fails"
   ],
   "note": "Violated: a name directly behind a number of one digit loses its first letter, as ALPHA0 in the sample file. Proved for two digits, or white space behind the number."
  },
  {
   "property": "C183",
   "status": "partial",
   "theorems": [
    "Verif.Hs2.C183_partial",
    "Verif.Hs2.C183_fails"
   ],
   "note": "Violated: a name with the accepted extension .txt gives a ValueError. Proved for .ind."
  },
  {
   "property": "C184",
   "status": "proved",
   "theorems": [
    "Verif.Hs2.C184_cmb"
   ],
   "note": "What CSVFile reads (first line, number of columns) is a parameter."
  },
  {
   "property": "C185",
   "status": "partial",
   "theorems": [
    "Verif.FlexDoc.C185_partial",
    "Verif.FlexDoc.C185_fails"
   ],
   "note": "Violated: digits in units and texts are values ([kg/m3] adds 3, Flex5 gives 5). Proved for entries whose words are numbers or have no digits."
  },
  {
   "property": "C186",
   "status": "proved",
   "theorems": [
    "Verif.FlexDoc.C186"
   ],
   "note": "The table Global_Mode1_Shape is treated in C189. The value of an entry with other texts is not stated."
  },
  {
   "property": "C187",
   "status": "partial",
   "theorems": [
    "Verif.FlexDoc.C187_partial",
    "Verif.FlexDoc.C187_fails"
   ],
   "note": "Violated: the first row of every matrix is lost (taken as a header), and Blade_IsolatedMassMatrix and Blade_IsolatedStiffnessMatrix are not known because of a missing comma. Proved: the rows from the second one on of the other matrices."
  },
  {
   "property": "C188",
   "status": "proved",
   "theorems": [
    "Verif.FlexDoc.C188"
   ],
   "note": "Headers with units: no rough or n followed by a space in the text, for which the code inserts units."
  },
  {
   "property": "C189",
   "status": "proved",
   "theorems": [
    "Verif.FlexDoc.C189"
   ],
   "note": ""
  },
  {
   "property": "C190",
   "status": "partial",
   "theorems": [
    "Verif.FlexDoc.C190_partial",
    "Verif.FlexDoc.C190_fails"
   ],
   "note": "Violated: an entry with two keys replaces the earlier one. Proved for entries with one key."
  },
  {
   "property": "C191",
   "status": "proved",
   "theorems": [
    "Verif.FlexDoc.C191_program",
    "Verif.FlexDoc.C191_rows",
    "Verif.FlexDoc.C191_cells"
   ],
   "note": ""
  },
  {
   "property": "C192",
   "status": "proved",
   "theorems": [
    "Verif.FlexSens.C192"
   ],
   "note": "np.arange is a parameter that must give as many times as there are rows (reshape raises otherwise)."
  },
  {
   "property": "C193",
   "status": "proved",
   "theorems": [
    "Verif.FlexSens.C193"
   ],
   "note": "As for C192."
  },
  {
   "property": "C194",
   "status": "proved",
   "theorems": [
    "Verif.FlexSens.C194_count",
    "Verif.FlexSens.C194_line"
   ],
   "note": ""
  },
  {
   "property": "C195",
   "status": "partial",
   "theorems": [
    "Verif.WaveKin.C195_partial",
    "Verif.WaveKin.C195_fails"
   ],
   "note": "Violated: the label of a velocity has the negated height, that of the acceleration at the same point has not. The partial theorem has the rest, with the labels the code gives. Cells with quotes are not modelled."
  },
  {
   "property": "C196",
   "status": "partial",
   "theorems": [
    "Verif.WaveKin.C196_partial",
    "Verif.WaveKin.C196_refused",
    "Verif.WaveKin.C196_fails"
   ],
   "note": "Violated: one elevation is expected for all displacements, so every such file with another number of displacements than one is refused (C196_refused). Files with one displacement are read."
  },
  {
   "property": "C197",
   "status": "proved",
   "theorems": [
    "Verif.WaveKin.C197",
    "Verif.WaveKin.C197_columns",
    "Verif.WaveKin.C197_wrong"
   ],
   "note": "Except where pandas would have to read quoted cells (not modelled)."
  },
  {
   "property": "C198",
   "status": "proved",
   "theorems": [
    "Verif.UserFmt.C198",
    "Verif.UserFmt.C198_strict",
    "Verif.UserFmt.C198_none"
   ],
   "note": "Importing a module and the listing of the folder are parameters; paths contain a separator, as they do after glob of a folder."
  },
  {
   "property": "C199",
   "status": "partial",
   "theorems": [
    "Verif.UserFmt.C199_partial",
    "Verif.UserFmt.C199_fails",
    "Verif.UserFmt.C199_init_fails"
   ],
   "note": "Violated: inspect.getmembers lists imported classes as well, so a module that imports CSVFile registers CSVFile instead of its own class if that name comes first; `__init__.py` is compared with the full path, so it is never left out. The partial theorem has folders without both."
  },
  {
   "property": "C200",
   "status": "proved",
   "theorems": [
    "Verif.Cactus.C200",
    "Verif.Cactus.C200_index"
   ],
   "note": "Which texts are numbers is a parameter."
  },
  {
   "property": "C201",
   "status": "proved",
   "theorems": [
    "Verif.Cactus.C201",
    "Verif.Cactus.C201_columns"
   ],
   "note": "Reading the csv file is C51 and following."
  },
  {
   "property": "C202",
   "status": "proved",
   "theorems": [
    "Verif.Cactus.C202",
    "Verif.Cactus.C202_rows"
   ],
   "note": "Exact arithmetic over a field; cosine, sine, pi and the remainder by 360 are parameters. The new labels must not be in the time data already."
  },
  {
   "property": "C203",
   "status": "proved",
   "theorems": [
    "Verif.Cactus.C203"
   ],
   "note": "Follows for every cosine and sine whose squares add to one."
  },
  {
   "property": "C204",
   "status": "partial",
   "theorems": [
    "Verif.Cactus.C204_partial",
    "Verif.Cactus.C204_fails",
    "Verif.Cactus.C204_missing"
   ],
   "note": "Violated: the columns are inserted in the stored frame, so the second call always raises ValueError (C204_fails), and without time data or without element data unpacking the result raises (C204_missing). The first call with both gives the columns of rotor, blades, nodes and time data."
  },
  {
   "property": "C205",
   "status": "partial",
   "theorems": [
    "Verif.Cactus.C205_partial",
    "Verif.Cactus.C205_fails"
   ],
   "note": "Violated: `dalphaD` and `alphaDot2` are inserted without moving the counter, so with a dynamic stall file they end up behind the columns of all later nodes. Holds without that file."
  },
  {
   "property": "C206",
   "status": "proved",
   "theorems": [
    "Verif.FastGraph.C206",
    "Verif.FastGraph.C206_data",
    "Verif.FastGraph.C206_total"
   ],
   "note": "colours and drawing data are not modelled"
  },
  {
   "property": "C207",
   "status": "proved",
   "theorems": [
    "Verif.FastGraph.C207"
   ],
   "note": ""
  },
  {
   "property": "C208",
   "status": "partial",
   "theorems": [
    "Verif.FastGraph.C208_fails",
    "Verif.FastGraph.C208_total_partial",
    "Verif.FastGraph.C208_partial",
    "Verif.FastGraph.C208_coefs_partial"
   ],
   "note": "violated by every file with coefficients by depth or by member, filled members or marine growth: an exception is raised; proved for files without these tables"
  },
  {
   "property": "C209",
   "status": "partial",
   "theorems": [
    "Verif.FastGraph.C209_fails",
    "Verif.FastGraph.C209_partial"
   ],
   "note": "violated: the moduli of an element are its area and density; the rest is proved"
  },
  {
   "property": "C210",
   "status": "proved",
   "theorems": [
    "Verif.Sheets.C210",
    "Verif.Sheets.C210_book"
   ],
   "note": "the cells of the sheets are those given by pandas"
  },
  {
   "property": "C211",
   "status": "partial",
   "theorems": [
    "Verif.Sheets.C211_fails",
    "Verif.Sheets.C211_partial",
    "Verif.Sheets.C211_again_partial"
   ],
   "note": "violated: rows without values are lost; proved for tables with a name for each column and a value in each row"
  },
  {
   "property": "C212",
   "status": "partial",
   "theorems": [
    "Verif.Sheets.C212_fails",
    "Verif.Sheets.C212_partial",
    "Verif.Sheets.C212_total_partial"
   ],
   "note": "violated: a channel with a slash in its name is left out without a message; proved for names without slashes and quotes"
  },
  {
   "property": "C213",
   "status": "proved",
   "theorems": [
    "Verif.Sheets.C213"
   ],
   "note": ""
  },
  {
   "property": "C214",
   "status": "proved",
   "theorems": [
    "Verif.Sheets.C214",
    "Verif.Sheets.C214_total"
   ],
   "note": ""
  },
  {
   "property": "C215",
   "status": "partial",
   "theorems": [
    "Verif.Sheets.C215_fails",
    "Verif.Sheets.C215_partial"
   ],
   "note": "violated when signals start at different times: the start of the last one is taken"
  },
  {
   "property": "C216",
   "status": "proved",
   "theorems": [
    "Verif.VtkFile.C216_mesh"
   ],
   "note": "the conversions of numbers to bytes and texts are parameters, with the laws stated in Codec.Laws and Kept; the cells have node numbers below 2^24"
  },
  {
   "property": "C217",
   "status": "partial",
   "theorems": [
    "Verif.VtkFile.C217_fails",
    "Verif.VtkFile.C217_partial"
   ],
   "note": "violated: arrays with one column come back without their second index, and the number of components of an array of matrices is wrongly written so that the binary file cannot be read; proved for arrays of numbers and of rows of three or more numbers (pairs are completed by zeros, C216)"
  },
  {
   "property": "C218",
   "status": "proved",
   "theorems": [
    "Verif.VtkFile.C218_grid"
   ],
   "note": "numpy.linspace is a parameter of which only the length is used"
  },
  {
   "property": "C219",
   "status": "partial",
   "theorems": [
    "Verif.VtkFile.C219_fails",
    "Verif.VtkFile.C219_partial"
   ],
   "note": "violated: for a FIELD of single numbers PD.shape[1] fails and the file cannot be read; missing: the partial theorem speaks of the grid of one array of rows of numbers, files with SCALARS and VECTORS are in C218"
  },
  {
   "property": "C220",
   "status": "proved",
   "theorems": [
    "Verif.Summary.C220_table"
   ],
   "note": "on top of the modes of getModes (C46, C47), in exact arithmetic"
  },
  {
   "property": "C221",
   "status": "proved",
   "theorems": [
    "Verif.HtcBody.C221_rows"
   ],
   "note": ""
  },
  {
   "property": "C222",
   "status": "proved",
   "theorems": [
    "Verif.HtcBody.C222_set"
   ],
   "note": ""
  },
  {
   "property": "C223",
   "status": "partial",
   "theorems": [
    "Verif.HtcBody.C223_fails",
    "Verif.HtcBody.C223_partial"
   ],
   "note": "violated: nsec is changed before the exception, so that a file written afterwards declares more sections than it has; proved that all other lines are unchanged"
  },
  {
   "property": "C224",
   "status": "partial",
   "theorems": [
    "Verif.HtcBody.C224_fails",
    "Verif.HtcBody.C224_partial"
   ],
   "note": "violated: reshape((-1,5)) makes four rows of five lines of four numbers; proved that lines of different sizes are refused, and lines whose numbers are not a multiple of five in all"
  },
  {
   "property": "C225",
   "status": "proved",
   "theorems": [
    "Verif.HtcBody.C225_name"
   ],
   "note": ""
  },
  {
   "property": "C226",
   "status": "proved",
   "theorems": [
    "Verif.HtcBody.C226_tables"
   ],
   "note": "tables of structural files are not modelled"
  },
  {
   "property": "C227",
   "status": "proved",
   "theorems": [
    "Verif.WriteTest.C227_pass",
    "Verif.WriteTest.C227_only",
    "Verif.WriteTest.C227_others",
    "Verif.WriteTest.C227_name"
   ],
   "note": "_read and _write of the class are parameters; a writer that writes no file and does not raise passes with an older temporary file"
  },
  {
   "property": "C228",
   "status": "proved",
   "theorems": [
    "Verif.WriteTest.C228_pass",
    "Verif.WriteTest.C228_differ",
    "Verif.WriteTest.C228_hooks",
    "Verif.WriteTest.C228_others"
   ],
   "note": "on top of ascii_comp (C47), with its reservation about bars"
  },
  {
   "property": "C229",
   "status": "proved",
   "theorems": [
    "Verif.WriteTest.C229_pass",
    "Verif.WriteTest.C229_differ",
    "Verif.WriteTest.C228_others"
   ],
   "note": "on top of ascii_comp (C47), with its reservation about bars"
  },
  {
   "property": "C230",
   "status": "partial",
   "theorems": [
    "Verif.WriteTest.C230_fails",
    "Verif.WriteTest.C230_name_fails",
    "Verif.WriteTest.C230_partial"
   ],
   "note": "violated: the object is left at the temporary file, which a passed test has removed, so that the same test again ends with FileNotFoundError; proved that reading the original again puts the object back"
  },
  {
   "property": "C231",
   "status": "partial",
   "theorems": [
    "Verif.WriteTest.C231_fails",
    "Verif.WriteTest.C231_partial"
   ],
   "note": "violated: e.args[0] of an OSError is a number (TypeError), and is missing for exceptions without arguments (IndexError); proved for exceptions with a text"
  },
  {
   "property": "C232",
   "status": "proved",
   "theorems": [
    "Verif.HtcCompare.C232_self",
    "Verif.HtcCompare.C232_same"
   ],
   "note": "the texts of the contents are parameters; compare_order=False"
  },
  {
   "property": "C233",
   "status": "partial",
   "theorems": [
    "Verif.HtcCompare.C233_fails",
    "Verif.HtcCompare.C233_partial"
   ],
   "note": "violated: the loop over the further sensors of the other file runs over those of this file, and the types of sensors are not compared; proved that equal reports mean equal names and values, and that sensors missing in the other file are reported"
  },
  {
   "property": "C234",
   "status": "partial",
   "theorems": [
    "Verif.HtcCompare.C234_fails",
    "Verif.HtcCompare.C234_partial"
   ],
   "note": "violated: the marks of lines with different values are swapped; proved for what only one of the files has"
  },
  {
   "property": "C235",
   "status": "proved",
   "theorems": [
    "Verif.WndFile.C235_table",
    "Verif.WndFile.C235_long"
   ],
   "note": "on top of the CSV reader (C50, C51); numbers are texts"
  },
  {
   "property": "C236",
   "status": "partial",
   "theorems": [
    "Verif.WndFile.C236_fails",
    "Verif.WndFile.C236_partial"
   ],
   "note": "violated: isBinary takes a tab in the first line for a control character; proved for files without tabs in the first line"
  },
  {
   "property": "C237",
   "status": "partial",
   "theorems": [
    "Verif.WndFile.C237_fails",
    "Verif.WndFile.C237_partial"
   ],
   "note": "violated: without comment lines the names are written in front, with tabs, and the file is refused as binary; proved for files that start with a comment"
  },
  {
   "property": "C238",
   "status": "proved",
   "theorems": [
    "Verif.HtcInclude.C238_parts",
    "Verif.HtcInclude.C238_plain",
    "Verif.HtcInclude.C238_none_left",
    "Verif.HtcInclude.C238_errors"
   ],
   "note": "C238_parts is compositional: the parts before and after the line may themselves contain such lines. The reading of the text of one file is a parameter."
  },
  {
   "property": "C239",
   "status": "partial",
   "theorems": [
    "Verif.HtcInclude.C239_fails",
    "Verif.HtcInclude.C239_partial"
   ],
   "note": "Violated: while the model path is unknown the name is put in lower case and looked up with the case-sensitive os.path.isfile, so that a name with capitals gives ValueError although the file is there (C239_fails, for every such name). Proved for names in lower case."
  },
  {
   "property": "C240",
   "status": "proved",
   "theorems": [
    "Verif.FlexDoc.C240_tables",
    "Verif.FlexDoc.C240_sections"
   ],
   "note": "C240_tables holds for every text that is read without error."
  },
  {
   "property": "C241",
   "status": "partial",
   "theorems": [
    "Verif.HtcEdit.C241_fails",
    "Verif.HtcEdit.C241_section_fails",
    "Verif.HtcEdit.C241_partial"
   ],
   "note": "Violated: names with `__1` behind are read as the first line of the name but assigned as a new line; assigning to the name of a section adds a line `values` in it. Proved for all other names."
  },
  {
   "property": "C242",
   "status": "partial",
   "theorems": [
    "Verif.HtcEdit.C242_fails",
    "Verif.HtcEdit.C242_partial"
   ],
   "note": "Violated for every name that is there: a second line is added and the first keeps its values. Proved for new names."
  },
  {
   "property": "C243",
   "status": "partial",
   "theorems": [
    "Verif.HtcEdit.C243_fails",
    "Verif.HtcEdit.C243_partial"
   ],
   "note": "Violated: the copy of an output section is a plain section without its sensors. Proved for lines and other sections of any depth."
  },
  {
   "property": "C244",
   "status": "proved",
   "theorems": [
    "Verif.HtcEdit.C244"
   ],
   "note": "For fields that are lines with at least one value."
  },
  {
   "property": "C245",
   "status": "partial",
   "theorems": [
    "Verif.HtcEdit.C245_fails",
    "Verif.HtcEdit.C245_partial"
   ],
   "note": "Violated: with the name of a line as key the result is never a section, since the code compares with an undefined name (NameError). Proved for whole numbers as keys among lines."
  },
  {
   "property": "C246",
   "status": "proved",
   "theorems": [
    "Verif.HtcEdit.C246",
    "Verif.HtcEdit.C246_start"
   ],
   "note": ""
  },
  {
   "property": "C247",
   "status": "partial",
   "theorems": [
    "Verif.HtcEdit.C247_fails",
    "Verif.HtcEdit.C247_partial"
   ],
   "note": "Violated: deleting a line that is not there is silent, the documentation says KeyError. Proved for contents that are there."
  },
  {
   "property": "C248",
   "status": "partial",
   "theorems": [
    "Verif.HtcQuery.C248_fails",
    "Verif.HtcQuery.C248_partial"
   ],
   "note": "Violated for a path through a line: HTCLine.__getitem__ adds one to the text in its message, and get does not catch the TypeError. Proved for all other paths, found or not."
  },
  {
   "property": "C249",
   "status": "partial",
   "theorems": [
    "Verif.HtcQuery.C249_fails",
    "Verif.HtcQuery.C249_partial"
   ],
   "note": "Violated for fields whose names begin with v: they are also taken for positions, and int or the values of a section raise. Proved for sets of fields of which one does not begin with v."
  },
  {
   "property": "C250",
   "status": "proved",
   "theorems": [
    "Verif.HtcQuery.C250"
   ],
   "note": ""
  },
  {
   "property": "C251",
   "status": "partial",
   "theorems": [
    "Verif.HtcFiles.C251_fails",
    "Verif.HtcFiles.C251_partial"
   ],
   "note": "Violated for the wakes section: its lines are looked for in the wind section, so that no line of it matters. Proved for all other lines."
  },
  {
   "property": "C252",
   "status": "proved",
   "theorems": [
    "Verif.HtcFiles.C252"
   ],
   "note": ""
  },
  {
   "property": "C253",
   "status": "proved",
   "theorems": [
    "Verif.HtcFiles.C253"
   ],
   "note": ""
  },
  {
   "property": "C254",
   "status": "proved",
   "theorems": [
    "Verif.HtcFiles.C254"
   ],
   "note": ""
  },
  {
   "property": "C255",
   "status": "partial",
   "theorems": [
    "Verif.DeckFiles.C255_fails",
    "Verif.DeckFiles.C255_partial",
    "Verif.DeckFiles.C255_alone"
   ],
   "note": "Violated: only the files of ElastoDyn and BeamDyn are listed, whatever the main file says of AeroDyn, InflowWind, ServoDyn and others. Proved for the five files of ElastoDyn and BeamDyn: all that are named are listed with their paths, and unused ones are not."
  },
  {
   "property": "C256",
   "status": "partial",
   "theorems": [
    "Verif.NetCdf.C256_fails",
    "Verif.NetCdf.C256_partial"
   ],
   "note": "Violated for scalars and coordinates: there is no table for them. Proved for all variables of one or two dimensions; no other tables exist, and their order is that of the variables."
  },
  {
   "property": "C257",
   "status": "partial",
   "theorems": [
    "Verif.HtcName.C257_fails",
    "Verif.HtcName.C257_partial",
    "Verif.HtcName.C257_test"
   ],
   "note": "Violated for simulations without a log file: the animation and the visualization keep their old names, since they are renamed only with the log file. Proved for simulations with a log file, an animation and a visualization."
  },
  {
   "property": "C258",
   "status": "partial",
   "theorems": [
    "Verif.HtcAdd.C258_fails",
    "Verif.HtcAdd.C258_partial"
   ],
   "note": "Violated for output sections: a given output section is replaced by an empty one, so that its lines and sensors are lost. Proved for all other sections."
  },
  {
   "property": "C259",
   "status": "proved",
   "theorems": [
    "Verif.HtcAdd.C259"
   ],
   "note": ""
  },
  {
   "property": "C260",
   "status": "proved",
   "theorems": [
    "Verif.HtcAdd.C260"
   ],
   "note": ""
  },
  {
   "property": "C261",
   "status": "proved",
   "theorems": [
    "Verif.HtcHydro.C261"
   ],
   "note": ""
  },
  {
   "property": "C262",
   "status": "proved",
   "theorems": [
    "Verif.HtcMann.C262"
   ],
   "note": "For file names that are given: the default ones need the package wetb.wind, which is not part of this code."
  }
 ]
}