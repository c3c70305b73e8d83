{"id": "C01", "title": "Format detection returns the first acceptable format", "statement": "weio.read / weio.detectFormat opens a file with exactly the first format, in the order of the format list, whose declared extensions match the file's extension and whose reader accepts the file; readers whose extensions do not match are never run on the file; if no matching reader accepts, FormatNotDetectedError is raised.", "quantifier": "every format list (any length, any extensions), every file name, every behaviour of the individual readers", "why_tests_cant": "The format list is open ended (user formats are loaded from a directory) and reader outcomes depend on file contents; tests only try the shipped samples.", "anchors": ["weio/__init__.py: detectFormat", "weio/file_formats.py: isRightFormat, FileFormat"]}
{"id": "C02", "title": "Detection skips a reader only on WrongFormatError", "statement": "While detecting a format, a reader that rejects the file with WrongFormatError is skipped, and any other exception of an extension-matching reader (broken file, missing file, empty file, ...) is propagated unchanged to the caller: detection never replaces it by a 'not detected' error nor silently falls through to a later format.", "quantifier": "every format list, every position of the failing reader, every exception kind", "why_tests_cant": "Needs all combinations of position and exception kind in lists of arbitrary length.", "anchors": ["weio/file_formats.py: isRightFormat", "weio/__init__.py: detectFormat"]}
{"id": "C03", "title": "The format list is the registration list stably sorted by priority", "statement": "fileFormats returns every registered format exactly once, ordered by non-decreasing priority, formats of equal priority keeping their registration order; with unchanged formats every later call returns that same list.", "quantifier": "every list of built-in formats and user formats with any integer priorities, every sequence of calls and arguments", "why_tests_cant": "User priorities and numbers of user formats are unbounded; the history of calls matters because the list is cached globally.", "anchors": ["weio/__init__.py: fileFormats, _FORMATS"]}
{"id": "C04", "title": "fileFormats returns the same kind of value on every call", "statement": "A call fileFormats(ignoreErrors=True) returns the pair (formats, errors) whatever calls were made before.", "quantifier": "every call history", "why_tests_cant": "Depends on the history of calls through a global cache; a test calling it once in a fresh interpreter passes.", "anchors": ["weio/__init__.py: fileFormats, _FORMATS"]}
{"id": "C05", "title": "Every declared extension is reachable", "statement": "For every supported format and every extension the format declares, a file carrying that extension is offered to that format's reader during detection.", "quantifier": "every format of the library, every extension in its defaultExtensions, every file stem", "why_tests_cant": "Quantifies over the whole extension table and over all file names; sample files exist for a handful of extensions only.", "anchors": ["weio/__init__.py: detectFormat", "weio/flex_blade_file.py: defaultExtensions", "weio/flex_profile_file.py: defaultExtensions", "weio/flex_doc_file.py: defaultExtensions"]}
{"id": "C06", "title": "Read and write guards of every file object", "statement": "For every file class: reading without any known file name, reading a path that is not a file, and reading an empty file raise (generic exception, OSError, EmptyFileError respectively) without running the format parser; otherwise the parser runs exactly once on the named file. write without any known name raises without touching any file. A name given to read/write becomes the object's current name for later calls, even if the call fails.", "quantifier": "every sequence of read/write calls with or without names, every file-system content, every parser behaviour", "why_tests_cant": "History dependent (the remembered name), over arbitrary file systems.", "anchors": ["weio/file.py: File.__init__, File.read, File.write"]}
{"id": "C07", "title": "FAST input object: reading a key returns the last value assigned", "statement": "On an OpenFAST input file object, after any sequence of assignments f[key]=value and addKeyVal(key,value) the value f[key] of a key that is present is the value of the last assignment to that key (case-insensitively), or the originally parsed value if there was none; other keys, comments and the order of the entries are unaffected.", "quantifier": "every initial file content (including repeated labels), every sequence of operations, every key", "why_tests_cant": "Histories of operations are unbounded and the labels may repeat or differ only by case.", "anchors": ["weio/fast_input_file.py: FASTInputFileBase.__setitem__, __getitem__, getIDs, getIDSafe, addKeyVal"]}
{"id": "C08", "title": "FAST input object: assigning an unknown key is not silently lost", "statement": "f[key]=value on an OpenFAST input file object either makes f[key] return value afterwards or raises an exception.", "quantifier": "every file content, every key, every value", "why_tests_cant": "The failing set is the (infinite) set of absent keys; tests only assign keys they know are there.", "anchors": ["weio/fast_input_file.py: FASTInputFileBase.__setitem__, getIDs"]}
{"id": "C09", "title": "FAST input object: addKeyVal and addComment grow the object predictably", "statement": "addKeyVal(key,value) updates in place if the key exists (number and order of entries unchanged) and otherwise appends exactly one entry at the end; afterwards f[key]=value; keys() lists exactly the non-comment labels in file order.", "quantifier": "every file content, key, value, and every sequence of such calls", "why_tests_cant": "Unbounded histories.", "anchors": ["weio/fast_input_file.py: FASTInputFileBase.addKeyVal, addComment, keys"]}
{"id": "C10", "title": "FAST input object: iteration terminates normally", "statement": "Iterating over an OpenFAST input file object (for k in f) visits every entry once and then stops.", "quantifier": "every file content", "why_tests_cant": "Holds or fails for all sizes; also depends on the iterator state left by earlier iterations.", "anchors": ["weio/fast_input_file.py: FASTInputFileBase.__iter__, __next__"]}
{"id": "C11", "title": "FAST input line: write/parse round trip", "statement": "Writing an entry (a numeric, logical, string or list value with its label and description) of an OpenFAST input file and parsing the written line gives back the same label, the same value and the same description.", "quantifier": "every label, every value token (and every list of tokens), every description, within an explicit decidable well-formedness condition", "why_tests_cant": "Values and descriptions are arbitrary strings; the interaction of padding, separators, quotes and the '-' of the description can only be settled for all strings by proof.", "anchors": ["weio/fast_input_file.py: parseFASTInputLine, FASTInputFileBase.toString (toStringVLD)"]}
{"id": "C12", "title": "FAST input file: saving what was saved changes nothing", "statement": "For an OpenFAST input file made of key/value lines and comments, writing, re-reading and writing again produces the same text (the first write is a fixpoint).", "quantifier": "every list of well-formed entries and comment lines (any length)", "why_tests_cant": "Unbounded files; a fixpoint property over arbitrary content.", "anchors": ["weio/fast_input_file.py: FASTInputFileBase._read, toString, parseFASTInputLine"]}
{"id": "C13", "title": "FAST input: comment lines are preserved verbatim", "statement": "A line starting with '#', '!', '--' or '==' (after leading blanks) is kept verbatim as a comment when read, and is written back unchanged at the same position.", "quantifier": "every such line, every position in every file", "why_tests_cant": "Arbitrary text after the comment marker (numbers, quotes, commas) must never be interpreted.", "anchors": ["weio/fast_input_file.py: parseFASTInputLine, toString"]}
{"id": "C14", "title": "OutList channels: every channel line is read, nothing beyond END", "statement": "Reading an OutList section returns exactly the lines before the first line starting with END, in order; writing a channel list and re-reading it gives the list back; a list that is not terminated raises instead of returning a truncated list.", "quantifier": "every list of lines, every position of the END marker", "why_tests_cant": "Unbounded number and content of channel lines (plus the 200-line limit of the reader).", "anchors": ["weio/fast_input_file.py: parseFASTOutList, toString (TABTYPE_NOT_A_TAB / OutList)"]}
{"id": "C15", "title": "Numeric tables are never silently truncated", "statement": "Parsing a numeric table of declared size n returns a table with exactly n rows in the file's row order, all of the declared width, or raises; it never returns fewer or more rows than declared, and no value present on a row is dropped.", "quantifier": "every declared size, every list of lines, every header count", "why_tests_cant": "Requires all mismatches between declared and available rows.", "anchors": ["weio/fast_input_file.py: parseFASTNumTable"]}
{"id": "C16", "title": "FAST binary output: chunked reading equals reading at once", "statement": "The chunked (buffered) reading of the data block of an OpenFAST binary output file returns exactly the table a single read of nT*nCols values reshaped row by row would give, for every number of time steps and channels.", "quantifier": "every nT, every number of channels, every data block (also too short ones)", "why_tests_cant": "Chunk boundaries depend on nCols through an integer division; only arithmetic for all sizes settles boundary cases (last partial chunk, chunk larger than file).", "anchors": ["weio/fast_output_file.py: load_binary_output.freadRowOrderTableBuffered"]}
{"id": "C17", "title": "FAST binary output: names, units and counts round trip", "statement": "Writing an OpenFAST binary output file and reading it back gives the same channel names, the same units, the same description, the same number of time steps and the same time step.", "quantifier": "every list of channels with names and units of at most 10 characters without trailing blanks, every number of time steps >= 2", "why_tests_cant": "Arbitrary names and channel counts; byte-level offsets must agree for all of them.", "anchors": ["weio/fast_output_file.py: writeBinary, load_binary_output"]}
{"id": "C18", "title": "FAST binary output: bounded error on every value", "statement": "Each value read back from a written OpenFAST binary file differs from the written one by at most one quantisation step (channel range/65535), the stored integers always lie in the int16 range, and a constant channel is reproduced exactly.", "quantifier": "every channel of every length, every rational value", "why_tests_cant": "Needs a bound over all reals and channel ranges.", "anchors": ["weio/fast_output_file.py: writeBinary, load_binary_output"]}
{"id": "C19", "title": "FAST binary output: over-long names are rejected without damaging the existing file", "statement": "If writing an OpenFAST binary output file raises (for example a channel name longer than 10 characters), the file previously stored under that name is unchanged.", "quantifier": "every data set, every previous file content, every point of failure", "why_tests_cant": "Crash points inside a writer are not exercised by tests.", "anchors": ["weio/fast_output_file.py: writeBinary, FASTOutputFile._write"]}
{"id": "C20", "title": "DataFrame export keeps each column's own unit", "statement": "writeDataFrame stores, for every column called 'name_[unit]', exactly the name and the unit of that column, and an empty unit for a column without brackets.", "quantifier": "every list of column names", "why_tests_cant": "Depends on the order and mix of columns with and without units.", "anchors": ["weio/fast_output_file.py: writeDataFrame"]}
{"id": "C21", "title": "Mann box: write then read is the identity", "statement": "A turbulence box written to a Mann file and read back with the same dimensions gives the same value at every (x,y,z) index, and distinct indices never share storage.", "quantifier": "every box size (nx,ny,nz) with at least one point, every content", "why_tests_cant": "The storage map involves an axis reversal and chunked reads; equality must hold for all sizes.", "anchors": ["weio/mannbox_file.py: MannBoxFile._read, _write"]}
{"id": "C22", "title": "Mann box: dimensions inferred from the file name", "statement": "When no dimensions are given, the box dimensions are the last three integers appearing in the file's base name, and a base name with fewer than three integers is rejected.", "quantifier": "every base name", "why_tests_cant": "All strings, any mixture of digits and other characters.", "anchors": ["weio/mannbox_file.py: MannBoxFile._read"]}
{"id": "C23", "title": "TurbSim box: write then read puts every sample back in its place", "statement": "Writing a TurbSim full-field box (with or without tower points) and reading it back returns, for every component, time, y and z index and for every tower point, the sample that was written there (up to quantisation).", "quantifier": "every nt, ny, nz, nTwr and content", "why_tests_cant": "Storage order interleaves grid and tower per time step; must hold for all sizes.", "anchors": ["weio/turbsim_file.py: TurbSimFile._read, _write"]}
{"id": "C24", "title": "TurbSim box: bounded quantisation error", "statement": "Every velocity read back from a written TurbSim file differs from the written velocity by less than one quantisation step ((max-min)/65535 of its component), stored integers lie in the int16 range, and a component that is constant is reproduced exactly (real arithmetic).", "quantifier": "every field content", "why_tests_cant": "Bound over all rational contents.", "anchors": ["weio/turbsim_file.py: TurbSimFile._write, _read"]}
{"id": "C25", "title": "TurbSim makePeriodic yields a periodic mirrored series", "statement": "makePeriodic replaces each series u[0..nt-1] by one of length 2*nt-2 that starts with the original samples, continues with the interior samples in reverse order, and therefore is periodic with u[nt]=u[nt-2], ... and is symmetric.", "quantifier": "every series length and content", "why_tests_cant": "Index arithmetic at the junctions for all lengths (including nt = 0, 1, 2).", "anchors": ["weio/turbsim_file.py: TurbSimFile.makePeriodic"]}
{"id": "C26", "title": "Computing statistics does not modify a TurbSim field", "statement": "Computing correlations, spectra or data frames from a TurbSim box leaves the velocity field unchanged, so that results do not depend on the order or number of the calls.", "quantifier": "every field and every sequence of analysis calls", "why_tests_cant": "Aliasing: the effect is visible only on later calls.", "anchors": ["weio/turbsim_file.py: crosscorr_y, crosscorr_z, csd_longi, csd_lat, csd_vert, _toDataFrame"]}
{"id": "C27", "title": "Nearest grid point lookup", "statement": "closestPoint(y,z) returns the indices of a grid point whose y and z distances to the request are minimal among all grid points.", "quantifier": "every grid, every requested location", "why_tests_cant": "All grids and points, ties included.", "anchors": ["weio/mannbox_file.py: closestPoint", "weio/turbsim_file.py: closestPoint"]}
{"id": "C28", "title": "HAWC2 output: any history of channel requests returns the requested channels", "statement": "Reading channels from a HAWC2 result file object returns the data of exactly the requested channels in the requested order, whatever channels were requested before.", "quantifier": "every sequence of requests, every list of channels (with repetitions)", "why_tests_cant": "The object caches channels between calls; only an invariant over all histories settles it.", "anchors": ["weio/wetb/hawc2/Hawc2io.py: ReadHawc2.__call__, ReadAll"]}
{"id": "C29", "title": "HAWC2 output: exporting to a data frame is repeatable", "statement": "Calling toDataFrame() twice on a HAWC2 output object gives data frames with the same column names.", "quantifier": "every list of channel names/units, every number of calls", "why_tests_cant": "The effect (name prefixing through aliasing) shows only on repeated calls.", "anchors": ["weio/hawc2_dat_file.py: HAWC2DatFile._toDataFrame"]}
{"id": "C30", "title": "AE file: text round trip and set insertion", "statement": "Writing a HAWC2 aerodynamic-layout (ae) file and reading it gives the same sets (numbers, rows, entries); adding a set without naming its number picks an unused positive number and never alters existing sets.", "quantifier": "every collection of sets whose profile-set numbers are integers, every sequence of insertions", "why_tests_cant": "Unbounded numbers of sets and gaps in numbering.", "anchors": ["weio/wetb/hawc2/ae_file.py: AEFile._read_file, __str__, add_set"]}
{"id": "C31", "title": "AE file: queries at every radius", "statement": "Chord, thickness and related queries at a given radius return the linear interpolation of the column at that radius for every radius, including 0.", "quantifier": "every table, every radius", "why_tests_cant": "Boundary radius values.", "anchors": ["weio/wetb/hawc2/ae_file.py: AEFile._value, radius_ae"]}
{"id": "C32", "title": "Profile-coefficient file: text round trip", "statement": "Writing a HAWC2 profile-coefficient (pc) file and reading it back gives the same sets in the same order, the same thicknesses and the same coefficient tables.", "quantifier": "every collection of sets, profiles and tables", "why_tests_cant": "Nested counted blocks of unbounded size.", "anchors": ["weio/wetb/hawc2/pc_file.py: PCFile._parse_lines, __str__"]}
{"id": "C33", "title": "Profile-coefficient file: lookups never fail within range", "statement": "A coefficient lookup at a relative thickness between the smallest and the largest thickness of a set interpolates linearly between the two neighbouring profiles and never raises.", "quantifier": "every set of profiles sorted by thickness, every thickness in range", "why_tests_cant": "Boundary values (equal to a profile, single profile, out of range).", "anchors": ["weio/wetb/hawc2/pc_file.py: PCFile._Cxxx"]}
{"id": "C34", "title": "HTC file: repeated commands are never lost", "statement": "Adding any number of lines or sections with the same name to an HTC section keeps every one of them, in order, each under a distinct key, and all are written back under their original name.", "quantifier": "every sequence of additions, every name multiplicity", "why_tests_cant": "Unbounded multiplicities and interactions with names that look like numbered keys.", "anchors": ["weio/wetb/hawc2/htc_contents.py: HTCContents._add_contents, HTCLine.__init__, HTCSection.__str__"]}
{"id": "C35", "title": "HTC file: parse of print", "statement": "Parsing the text of an HTC section tree (nested begin/end sections, lines with values and comments) gives back the same tree.", "quantifier": "every well-formed section tree (any depth and width)", "why_tests_cant": "Unbounded nesting.", "anchors": ["weio/wetb/hawc2/htc_contents.py: HTCSection.from_lines, HTCSection.__str__, HTCLine.from_lines, HTCLine.__str__, parse_next_line"]}
{"id": "C36", "title": "HTC file: an unterminated section is reported", "statement": "Parsing a section whose end line is missing raises the documented 'Section ... has not end' error for every content.", "quantifier": "every list of lines without matching end", "why_tests_cant": "All positions of truncation of all files.", "anchors": ["weio/wetb/hawc2/htc_contents.py: HTCSection.from_lines"]}
{"id": "C37", "title": "Structured VTK grids: generated cells are exactly the grid cells", "statement": "For a structured VTK grid with any dimensions, the generated connectivity lists each grid cell exactly once, with its 2, 4 or 8 corner points, every index being a valid point number.", "quantifier": "all grid dimensions (1D, 2D, 3D)", "why_tests_cant": "Index arithmetic for all dimensions.", "anchors": ["weio/vtk_file.py: _generate_cells, _generate_points"]}
{"id": "C38", "title": "VTK unstructured cells: written connectivity reads back", "statement": "Writing the cell blocks of an unstructured VTK mesh and reading them back gives the same cells with the same node order, grouped by consecutive type.", "quantifier": "every list of non-polygon cell blocks of known types", "why_tests_cant": "Any number, mix and order of cells; node reordering for wedge types must be inverted exactly.", "anchors": ["weio/vtk_file.py: _write_cells, translate_cells, _vtk_to_meshio_order, _meshio_to_vtk_order"]}
{"id": "C39", "title": "Bladed output: column mapping is a bijection", "statement": "Flattening a Bladed 3-d result (channel x section x time) to columns puts each (section, channel) series in its own column labelled with that channel and section, and loses none.", "quantifier": "every number of sections, channels and time steps", "why_tests_cant": "Index arithmetic for all sizes.", "anchors": ["weio/bladed_out_file.py: OrgData"]}
{"id": "C40", "title": "Bladed output: merging files loses no data set", "statement": "Reading a Bladed project with several result files keeps the data of each result file.", "quantifier": "every number and mix of result files", "why_tests_cant": "Depends on how many data sets of each kind are present.", "anchors": ["weio/bladed_out_file.py: BladedFile._read"]}
{"id": "C41", "title": "Flex result: reshaping keeps every sample", "statement": "Reading a Flex5 result file assigns sample number k of the data block to channel k mod n and step k div n (or channel-major for version 3), and rejects blocks whose size is not a multiple of the number of channels.", "quantifier": "every number of channels and block length", "why_tests_cant": "All sizes.", "anchors": ["weio/flex_out_file.py: read_flex_res"]}
{"id": "C42", "title": "Tecplot: title survives write/read cycles", "statement": "Reading a Tecplot file, writing it and reading it again gives the same title, for any number of cycles.", "quantifier": "every title, every number of cycles", "why_tests_cant": "Growth shows over repeated cycles.", "anchors": ["weio/tecplot_file.py: TecplotFile.read, TecplotFile.write, read_tecplot"]}
{"id": "C43", "title": "FAST deck: written references point to written files", "statement": "After writing a complete OpenFAST input deck, each module file reference in the main file names the file to which that module's data was written.", "quantifier": "every deck (any subset of modules), every file names", "why_tests_cant": "Needs all subsets of modules.", "anchors": ["weio/fast_input_deck.py: FASTInputDeck.write"]}
{"id": "C44", "title": "Graph: dividing elements keeps ids unique and the members connected", "statement": "divideElements(n) replaces every two-node element by a chain of n elements from its first to its last node through new nodes; all node IDs and element IDs stay unique and the numbers of nodes/elements grow by (n-1) per element.", "quantifier": "every graph with unique IDs, every n >= 1", "why_tests_cant": "All graph sizes and IDs.", "anchors": ["weio/tools/graph.py: GraphModel._divideElement, divideElements, addElement"]}
{"id": "C45", "title": "Graph: connectivity queries reflect the current graph", "statement": "Connectivity information returned by a graph object always describes its current elements.", "quantifier": "every sequence of queries and additions", "why_tests_cant": "Stale caches need a history query-add-query.", "anchors": ["weio/tools/graph.py: GraphModel.nodeIDs2ElementIDs, nodeIDs2Elements, connectivity, addElement, connecticityHasChanged"]}
{"id": "C46", "title": "SubDyn summary objects are independent", "statement": "The results computed from one SubDyn summary object (modes, JSON export) depend only on that object's file, not on other summary files read later, and repeated calls give the same result.", "quantifier": "every history of reads and method calls on several objects", "why_tests_cant": "Requires interleavings of several objects.", "anchors": ["weio/fast_summary_file.py: readSubDynSum"]}
{"id": "C47", "title": "ASCII comparison is an equivalence that ignores blanks only", "statement": "ascii_comp is reflexive, symmetric and transitive, ignores differences in the amount of blanks/tabs within and around lines, and returns False for files that differ in their words or line structure.", "quantifier": "all file contents", "why_tests_cant": "Over all pairs/triples of texts.", "anchors": ["weio/file.py: ascii_comp"]}
{"id": "C48", "title": "Writers do not destroy data when they fail", "statement": "If write() raises, the file of that name still has its previous content.", "quantifier": "every file class, every object state, every previous content", "why_tests_cant": "Crash points and erroneous states are not enumerated by tests.", "anchors": ["weio/fast_input_file.py: FASTInputFileBase._write", "weio/flex_profile_file.py: _write", "weio/rosco_performance_file.py: write_rotor_performance", "weio/fast_linearization_file.py: toString/_write"]}
{"id": "C49", "title": "AeroDyn polar write leaves the object as it was", "statement": "Writing an AeroDyn polar file leaves the in-memory object unchanged (labels included), whether or not the write succeeds.", "quantifier": "every object content, every failure point", "why_tests_cant": "Failure points inside the write.", "anchors": ["weio/fast_input_file.py: ADPolarFile._write"]}
{"id": "C50", "title": "CSV file: written column names are re-read", "statement": "Writing a table with column names to CSV and reading the file back gives the same column names and rows.", "quantifier": "all column name lists and tables; with or without free header lines", "why_tests_cant": "Depends on arbitrary header and names.", "anchors": ["weio/csv_file.py: CSVFile._write, _read"]}
{"id": "C51", "title": "CSV column-name detection decision", "statement": "When column names are not specified, the first data line is taken as column names exactly when at most half of (more than two) fields, or none of the fields, are numbers; otherwise names C0..Cn-1 are generated and no data row is lost.", "quantifier": "every first line", "why_tests_cant": "Decision over all field mixes.", "anchors": ["weio/csv_file.py: CSVFile._read"]}
{"id": "C52", "title": "Step wind generator", "statement": "stepWind produces a time table with non-decreasing times in which each requested wind speed is held on its own interval and consecutive values join at a jump of one time step.", "quantifier": "every list of steps", "why_tests_cant": "All lengths.", "anchors": ["weio/fast_wind_file.py: FASTWndFile.stepWind"]}
{"id": "C53", "title": "FAST input: every line read as a comment is written back verbatim", "statement": "A line of an OpenFAST input file that is classified as a comment when read (no label found, 'END of ...' line, comment marker) is written back unchanged.", "quantifier": "every line", "why_tests_cant": "Arbitrary texts; several code paths set the comment flag.", "anchors": ["weio/fast_input_file.py: parseFASTInputLine, toString"]}
{"id": "C54", "title": "FAST input reader refuses foreign text files with a format error", "statement": "Reading a text file as an OpenFAST input file either succeeds or raises WrongFormatError, so that automatic detection can try the next format.", "quantifier": "every text", "why_tests_cant": "Every possible text file with a shared extension.", "anchors": ["weio/fast_input_file.py: FASTInputFileBase._read, parseFASTInputLine, detectAndReadExtPtfmSE"]}
{"id": "C55", "title": "FAST input tables have one name per column", "statement": "A table read from an OpenFAST input file comes with exactly as many column names as columns.", "quantifier": "every header line, every rows", "why_tests_cant": "All combinations of header and row widths.", "anchors": ["weio/fast_input_file.py: parseFASTNumTable"]}
{"id": "C56", "title": "Binary output: the time column is reproduced", "statement": "Writing an OpenFAST binary output file and reading it back gives the same time column.", "quantifier": "every time vector of at least two steps, uniform or not", "why_tests_cant": "Depends on every spacing of the time vector.", "anchors": ["weio/fast_output_file.py: writeBinary, load_binary_output"]}
{"id": "C57", "title": "Mann box: a file of the wrong size is refused", "statement": "Reading a Mann box file whose size is not 4*nx*ny*nz bytes raises an error instead of returning a field.", "quantifier": "every file content and every dimensions", "why_tests_cant": "All sizes, shorter or longer.", "anchors": ["weio/mannbox_file.py: MannBoxFile._read"]}
{"id": "C58", "title": "Mann box coordinates have one value per grid point", "statement": "The y and z coordinates and the time vector of a Mann box have exactly ny, nz and nt values, are equidistant with the requested spacing, and start at the given origin (or are centred on 0, or have the requested mean height).", "quantifier": "every size, spacing, origin and mid height (real arithmetic)", "why_tests_cant": "Every number of points and spacing; off-by-one in arange only shows for some.", "anchors": ["weio/mannbox_file.py: MannBoxFile.y, z, t"]}
{"id": "C59", "title": "TurbSim scale sets mean and standard deviation", "statement": "scale(new_mean,new_std) makes the mean at the reference point equal new_mean, shifts all other points by the same amount, multiplies each deviation from a point's own mean by new_std/old_std and leaves the other components unchanged.", "quantifier": "every field, component, reference point and targets (real arithmetic)", "why_tests_cant": "Every field; statistical statement over all samples.", "anchors": ["weio/turbsim_file.py: TurbSimFile.scale"]}
{"id": "C60", "title": "TurbSim coordinates survive writing and reading", "statement": "Writing a TurbSim box and reading it back gives the same y, z and t vectors.", "quantifier": "every uniform grid and time vector", "why_tests_cant": "Any origin of the coordinates.", "anchors": ["weio/turbsim_file.py: TurbSimFile._write, _read"]}
{"id": "C61", "title": "VTK meshes with polygons: cells and cell data are re-read", "statement": "Writing an unstructured VTK mesh that contains polygons and reading it back gives the same cells, polygons grouped by their number of corners, and the same cell data.", "quantifier": "every mesh with at least one polygon and any other known cell types", "why_tests_cant": "Any mix of polygon sizes and cell types; offsets have to be found by walking along the data.", "anchors": ["weio/vtk_file.py: translate_cells, _write_cells"]}
{"id": "C62", "title": "Bladed output: each series keeps its own time base", "statement": "In the data read from a Bladed project, each series is given together with the time vector of its own result file.", "quantifier": "every set of result files", "why_tests_cant": "Depends on coincidences of lengths between files.", "anchors": ["weio/bladed_out_file.py: BladedFile._read"]}
{"id": "C63", "title": "Tecplot: variables and data survive writing and reading", "statement": "Writing a Tecplot object with variables and data and reading the file back gives the same variable names and the same table.", "quantifier": "every list of variable names, every table", "why_tests_cant": "Names go through seven text replacements; line wrapping and squeezing depend on the shape.", "anchors": ["weio/tecplot_file.py: TecplotFile.write, read_tecplot, _process_merged_line"]}
{"id": "C64", "title": "Tecplot: zone settings survive reading and writing", "statement": "Each setting of a zone or auxiliary data line is read with its own value, and is the same after writing and reading the file again.", "quantifier": "every set of settings", "why_tests_cant": "Any number of settings per line and per file.", "anchors": ["weio/tecplot_file.py: TecplotFile.write, _process_merged_line"]}
{"id": "C65", "title": "Text files are not taken for binary", "statement": "isBinary(f) is False for every file whose first line is printable text (blanks and tabs included), and True for files that cannot be decoded or whose first line has other control characters.", "quantifier": "every file content", "why_tests_cant": "Every first line; one forgotten control character only shows for some files.", "anchors": ["weio/file.py: isBinary", "weio/fast_wind_file.py", "weio/bladed_out_file.py"]}
{"id": "C66", "title": "CSV object: reading does not depend on earlier reads", "statement": "Reading a file (again) with a CSV object gives the same column names and rows as reading it with a fresh object.", "quantifier": "every pair of files read in sequence with the same object", "why_tests_cant": "Interactions of two reads with the same object.", "anchors": ["weio/csv_file.py: CSVFile._read"]}
{"id": "C67", "title": "A successful write leaves something to read", "statement": "After a write() that does not raise, the file is not empty, so that reading it again does not raise EmptyFileError.", "quantifier": "every file class, every object state that has something to write", "why_tests_cant": "All states of all writers; the result of toString may be empty only for some classes.", "anchors": ["weio/fast_linearization_file.py: toString/_write", "weio/file.py: File.write, read"]}
{"id": "C68", "title": "SubDyn mode shapes stand at their nodes and have the wanted size", "statement": "NodesDisp lists each node of the given degrees of freedom once, with its position; each translation stands in the row of its node and the column of its direction, multiplied by one factor per shape; with maxDisp the largest translation of each shape is maxDisp (shapes below 1e-5 are left alone). getModes without maxDisp uses a tenth of the largest extent of the nodes. With sortDim the positions are in increasing order of that coordinate.", "quantifier": "every table of degrees of freedom, every set of shapes, every size, sorted or not", "why_tests_cant": "Any numbering of nodes and degrees of freedom, any permutation by sorting.", "anchors": ["weio/fast_summary_file.py: readSubDynSum (NodesDisp)"]}
{"id": "C69", "title": "SubDyn JSON export: modes and nodes have the same order", "statement": "In the dictionary returned by toJSON, row i of the displacements of each mode belongs to row i of the nodes.", "quantifier": "every summary file, nodes listed in any order", "why_tests_cant": "Only structures whose nodes are not listed from bottom to top show a difference.", "anchors": ["weio/fast_summary_file.py: readSubDynSum (subDynToJson, getModes)"]}
{"id": "C70", "title": "FAST ASCII output: names, units and values survive writing and reading", "statement": "Writing an OpenFAST ASCII output object and reading the file back gives the same description, names and units, and in each place the number that was printed there; saving again gives the same file.", "quantifier": "every list of names and units, every table", "why_tests_cant": "Any number of rows and columns, any characters in names and units.", "anchors": ["weio/fast_output_file.py: FASTOutputFile._write, load_ascii_output"]}
{"id": "C71", "title": "A FAST output file that was read can be exported", "statement": "If an OpenFAST ASCII output file is read without error, toDataFrame gives one column per name, named after name and unit, with the rows of the file.", "quantifier": "every file content that is accepted by the reader", "why_tests_cant": "Depends on numbers of rows, names and units; loadtxt squeezes small tables.", "anchors": ["weio/fast_output_file.py: load_ascii_output, FASTOutputFile._toDataFrame"]}
{"id": "C72", "title": "CSV: comment lines and names given by the user", "statement": "When the user says which lines are comments (commentLines) and which line holds the column names (colNamesLine), the header is exactly those comment lines, the names are the fields of that line, and every other line is a row.", "quantifier": "every file, every list of comment lines, every position of the names", "why_tests_cant": "Any list of line numbers; the start of the data is computed from the number of comment lines, not from their positions.", "anchors": ["weio/csv_file.py: CSVFile._read (commentLines, colNamesLine, skiprows)"]}
{"id": "C73", "title": "Dedicated FAST inputs: counts written are the numbers of table lines", "statement": "When an OpenFAST input file is written, the item giving the number of lines of a table (NumBlNds, NBlInpSt, NTwInpSt, NumAlf, ...) holds the number of lines of that table; every other item is written as it is.", "quantifier": "every object of every class, tables of any length, any number of polar tables", "why_tests_cant": "The number of tables and lines is unbounded; generic objects have dozens of table/count pairs.", "anchors": ["weio/fast_input_file.py: _writeSanityChecks of EDBladeFile, ADBladeFile, ADPolarFile, FASTInputFileBase"]}
{"id": "C74", "title": "Polars with several tables: names in the file", "statement": "When a polar with several tables is written, the items are written in their order; the first item called key_k, for a key of airfoil tables and a table number k, is called key in the file, and every other item keeps its name; the object keeps all of its names.", "quantifier": "every object, every number of tables other than one", "why_tests_cant": "Suffixes of all lengths, labels containing underscores and digits, repeated labels.", "anchors": ["weio/fast_input_file.py: ADPolarFile._write"]}
{"id": "C75", "title": "Reading another file into a FASTInputFile", "statement": "After read(filename) an existing FASTInputFile object behaves as a new FASTInputFile(filename): same class, same items, same effect of write.", "quantifier": "every pair of files", "why_tests_cant": "Pairs of files of all classes.", "anchors": ["weio/fast_input_file.py: FASTInputFile.fixedfile, fixedFormat, read, write"]}
{"id": "C76", "title": "Objects of dedicated classes give the items of the file", "statement": "An object made by EDBladeFile(filename), ADBladeFile(filename) or ADPolarFile(filename) gives for each key the item of the file, KeyError for other keys, and keys() lists the keys of the file.", "quantifier": "every file, every key", "why_tests_cant": "All files and keys.", "anchors": ["weio/fast_input_file.py: EDBladeFile.__init__, ADBladeFile.__init__, ADPolarFile.__init__, __getitem__, keys"]}
{"id": "C77", "title": "The comment of a FAST input file can be set and read", "statement": "After f.comment=c, f.comment is c and nothing but the comment lines of the file has changed.", "quantifier": "every class of file, every text", "why_tests_cant": "All texts and classes.", "anchors": ["weio/fast_input_file.py: FASTInputFile.comment, FASTInputFileBase.comment, ADPolarFile.comment, _IComment"]}
{"id": "C78", "title": "Prototypes of dedicated FAST inputs are complete", "statement": "An object made without file name by ADBladeFile() or ADPolarFile(hasUA, numTabs) can be written and has for every table all the items of the format.", "quantifier": "every number of tables, with and without unsteady data", "why_tests_cant": "Any number of tables.", "anchors": ["weio/fast_input_file.py: ADBladeFile.__init__, ADPolarFile.__init__, _writeSanityChecks"]}
{"id": "C79", "title": "External platform files round trip", "statement": "An object that ExtPtfmFile.write accepts is read back from the file written with the same dimension, time step, simulation time, mass, stiffness and damping matrices and loading table, each number as it was printed.", "quantifier": "every dimension, every matrices and loading table", "why_tests_cant": "Dimensions and numbers of time steps are unbounded; numbers of every width.", "anchors": ["weio/fast_input_file.py: ExtPtfmFile.toString, _writeSanityChecks, _read, detectAndReadExtPtfmSE"]}
{"id": "C80", "title": "Every OpenFAST binary format is read item by item", "statement": "A file laid out in any of the four OpenFAST binary formats (packed times, time increment, uncompressed, names of a given width) is read with description, names, units, times and values of the file: value (i,j) is (x-offset)/slope of channel j, or the stored number for uncompressed files. Every proper beginning of such a file is refused, and so is every file with another identifier.", "quantifier": "every content of 1 to 163840 channels, every place where the file is cut", "why_tests_cant": "The number of rows and channels is unbounded; the file can be cut anywhere; OpenFAST writes formats 1, 3 and 4 that weio never writes.", "anchors": ["weio/fast_output_file.py: load_binary_output, freadRowOrderTableBuffered"]}
{"id": "C81", "title": "Reading an OpenFAST input file ends", "statement": "FASTInputFile(filename) ends, with an object or an exception, for every text file; the number of turns of the reading loop is at most the number of lines.", "quantifier": "every text", "why_tests_cant": "A test that does not end shows nothing about the other texts; the loop moves by numbers read from the file itself.", "anchors": ["weio/fast_input_file.py: FASTInputFileBase._read"]}
{"id": "C82", "title": "FAST input with tables: saving then reading gives everything back", "statement": "An OpenFAST input file made of keys, comments, tables (values or words, with units), polars, matrices, lists of files, lists of channels and BeamDyn sections, once saved and read, gives the same labels, values, column names and units in the same order, and saving it again gives the same text.", "quantifier": "every sequence of such items, every table size, every number of channels and sections", "why_tests_cant": "Each section moves the reader by counts found elsewhere in the file; tests use the files of the examples, the sequences and sizes are unbounded.", "anchors": ["weio/fast_input_file.py: FASTInputFileBase._read, FASTInputFileBase.toString, parseFASTNumTable, parseFASTOutList, parseFASTFilTable"]}
{"id": "C83", "title": "Airfoil files survive saving", "statement": "An airfoil file (AeroDyn 14 or 15, with or without coordinates, one or several tables) that was read can be saved, and what was saved is read back.", "quantifier": "every airfoil file that can be read, every number of rows", "why_tests_cant": "Each form of airfoil file is stored differently; one that is read without error can still be impossible to save or to read again.", "anchors": ["weio/fast_input_file.py: FASTInputFileBase.detectAndReadAirfoilAD14, FASTInputFileBase._read, FASTInputFileBase.toString"]}
{"id": "C84", "title": "Saving repeatedly keeps a FAST input file readable and of the same size", "statement": "Reading and saving an OpenFAST input file any number of times leaves it readable and does not make it grow.", "quantifier": "every file that can be read, every number of cycles", "why_tests_cant": "Growth of a few characters per cycle is not seen in one cycle; the number of cycles is unbounded.", "anchors": ["weio/fast_input_file.py: FASTInputFileBase._read, FASTInputFileBase.toString"]}
{"id": "C85", "title": "File names of lists keep their blanks", "statement": "The names of a list of files (airfoil files of AeroDyn) are those of the file: the text between the quotes, or the first word of the line.", "quantifier": "every list of names, every text after each name", "why_tests_cant": "Names and remarks are arbitrary texts.", "anchors": ["weio/fast_input_file.py: parseFASTFilTable"]}
{"id": "C86", "title": "What is read from a FAST table does not depend on its layout", "statement": "The values, column names and units of a table of an OpenFAST input file are the words of its rows and header lines: spacing, comments after ! or #, remarks in brackets after the names, the notation of units ((m), [m] or m) and the case of true/false/print/noprint change nothing. Names in excess are cut and missing names completed with Col (after NodeCnt, or in tables with words). A numeric row that is too short or has a value that is no number, and a row --- in a table with words, are refused.", "quantifier": "every table, every size, every layout", "why_tests_cant": "Files are written by hand and by many tools; tests read the files of the examples only.", "anchors": ["weio/fast_input_file.py: parseFASTNumTable, cleanAfterChar, detectUnits"]}
{"id": "C87", "title": "What a FAST input file says is what is read", "statement": "From an OpenFAST input file made of comments, lines 'value label', lines 'v1, v2 label', tables of the documented kinds with as many rows as an earlier key says, polars after NumAlf, lists of files and a final list of channels, the reader gives exactly the items these lines stand for, in their order: labels, values, names and units of columns, tables under their documented names. The value found under a key is that of the first line with this label, whatever the case.", "quantifier": "every file of these lines, any number and order, every layout", "why_tests_cant": "Files combine dozens of kinds of items in any order and layout; tests read the files of the examples only.", "anchors": ["weio/fast_input_file.py: FASTInputFileBase._read, parseFASTInputLine, parseFASTNumTable, parseFASTOutList, parseFASTFilTable"]}
{"id": "C88", "title": "Which files of keys and comments are taken for FAST input files", "statement": "A file of keys and comments is refused with a WrongFormatError when a label after the third line has a character other than letters, digits and \"'_()-, when more than 35% of its lines are comments, or more than 10% of its labels have such characters. Any other such file is read.", "quantifier": "every file of keys and comments, every length", "why_tests_cant": "The checks accumulate over the lines of the file; the boundaries depend on its length.", "anchors": ["weio/fast_input_file.py: FASTInputFileBase._read, hasSpecialChars"]}
{"id": "C89", "title": "What a Tecplot file says is what is read, whatever its layout", "statement": "From a Tecplot ASCII file the reader gives the title, the names of the variables, the settings of the zone and of the auxiliary data and the other texts as said in its sections (the last one counts for each), and the rows of numbers. Keywords may be in any case, lines may have white space around them, comment lines may stand anywhere, sections may go on over several lines, names may be in quotes or plain, separated by blanks or commas, rows may have comments behind them and empty lines between them.", "quantifier": "every sequence of sections, every layout, every table of at least two rows and columns", "why_tests_cant": "Files are written by many tools in many layouts; tests read a few files of one tool.", "anchors": ["weio/tecplot_file.py: read_tecplot, _process_merged_line"]}
{"id": "C90", "title": "Tecplot files without variables or with a wrong number of columns are refused", "statement": "A Tecplot file that does not begin with a section, that has no variables section before its numbers, or has a section other than title and variables that goes on over a second line before the variables, is refused with a WrongFormatError. Rows of another length than the list of variables are refused with a BrokenFormatError, rows of different lengths with a WrongFormatError.", "quantifier": "every header, every table", "why_tests_cant": "There are unboundedly many malformed files.", "anchors": ["weio/tecplot_file.py: read_tecplot"]}
{"id": "C91", "title": "AeroDyn 14 polars are recognised and read", "statement": "A polar of AeroDyn 14 (two lines of title, 12 header lines, then rows of numbers up to the end of the file or a blank line) is read as the two titles, the number of each header line under the words that follow it, and one array Polar with all the numbers in order, whose columns are named Alpha, Cl, Cd, Cm (or Alpha, Cl, Cd) with the name of the table when there are several. A file is read in this way only if the words angle and minimum stand in lines 13 and 14, after as many values as the file has tables.", "quantifier": "every number of tables, every header text, every table of numbers", "why_tests_cant": "Tests read one polar of this kind; the recognition depends on words of two lines and a count, in files that have no keyword.", "anchors": ["weio/fast_input_file.py: FASTInputFileBase.detectAndReadAirfoilAD14"]}
{"id": "C92", "title": "What a linearization file says is what is read", "statement": "From an OpenFAST linearization file (a header of at most 30 lines with the numbers of states, inputs and outputs, the line saying whether Jacobians are included, then lists of operating points, matrices and other lines in any order) the reader gives exactly what is written: for every operating point its value (the first of three for an orientation), frame, derivative order (-1 when there is no such column) and description; every row of A, B, C, D, dUdu, dUdy and of the ElastoDyn mass matrix; the azimuth, rotor speed and wind speed of the header or None when they are not there. Nothing is read from other lines.", "quantifier": "every number of states, inputs and outputs, every order of the lists and matrices, every layout of the lines", "why_tests_cant": "The sizes of the lists and the lines they are on are given by the file itself; tests read a few files of fixed sizes.", "anchors": ["weio/fast_linearization_file.py: FASTLinearizationFile._read"]}
{"id": "C93", "title": "A linearization file cut short is refused", "statement": "A linearization file which ends too early (inside its header, inside a list of operating points or inside a matrix) is refused with an exception rather than read as a smaller or empty system.", "quantifier": "every file, every place where it may be cut", "why_tests_cant": "There are as many places to cut a file as there are lines; tests read complete files.", "anchors": ["weio/fast_linearization_file.py: FASTLinearizationFile._read"]}
{"id": "C94", "title": "What a ROSCO performance file says is what is read", "statement": "From a ROSCO performance file (a line of pitch angles, of tip speed ratios and, or not, of wind speeds under their titles; the tables of power, thrust and torque coefficients with one row per tip speed ratio and one column per pitch angle; any other lines in between, the pitch angles among the first twelve parts) the reader gives exactly these numbers, and the data frames hold one row per tip speed ratio: the ratio, then the coefficient of every pitch angle.", "quantifier": "every number of pitch angles and tip speed ratios, every order of the tables, every layout of lines", "why_tests_cant": "The sizes are given by the file itself and the parts may come in any order; tests read one file.", "anchors": ["weio/rosco_performance_file.py: load_from_txt, ROSCOPerformanceFile._read, ROSCOPerformanceFile.toDataFrame"]}
{"id": "C95", "title": "A ROSCO performance file cut short is refused", "statement": "A ROSCO performance file with at least one pitch angle and one tip speed ratio, cut after any number of lines before the end of the last of its three tables, is refused with an exception: no object with missing or partial tables is returned.", "quantifier": "every file, every number of lines kept", "why_tests_cant": "There are as many places to cut a file as there are lines; tests read complete files.", "anchors": ["weio/rosco_performance_file.py: load_from_txt"]}
{"id": "C96", "title": "A ROSCO performance object can be saved and read again", "statement": "Writing a ROSCO performance object succeeds and reading the file gives the vectors and tables back, as printed.", "quantifier": "every object, every size", "why_tests_cant": "Tests read a file and never write one.", "anchors": ["weio/rosco_performance_file.py: write_rotor_performance, ROSCOPerformanceFile._write, load_from_txt"]}
{"id": "C97", "title": "The ROSCO performance reader refuses foreign text files with a format error", "statement": "A text file which is not a ROSCO performance file is refused with a WrongFormatError, as automatic detection of formats expects.", "quantifier": "every text", "why_tests_cant": "There are unboundedly many foreign files.", "anchors": ["weio/rosco_performance_file.py: load_from_txt"]}
{"id": "C98", "title": "Data frames of a linearization file carry the values read under labels of the right list", "statement": "For an object whose lists of states, inputs and outputs were read and whose matrices have the sizes these lists ask for, toDataFrame() raises nothing and returns one data frame per matrix and list present, with exactly the values held: A (states x states), B (states x inputs), C (outputs x states), D (outputs x inputs), dUdu (inputs x inputs), dUdy (inputs x outputs), M (degrees of freedom x degrees of freedom), and one row for each of x, xdot, u, y; rows and columns are labelled by the short names of their own list, in its order. No label ever contains a blank or a comma.", "quantifier": "for all objects with consistent sizes, all numbers of states, inputs, outputs, all descriptions", "why_tests_cant": "Tests load one or two files; swapped labels between inputs and states or rows and columns show only where the counts differ, and labels depend on some 120 text replacements applied in order to any description.", "anchors": ["weio/fast_linearization_file.py:159-352"]}
{"id": "C99", "title": "What a FLEX profile file says is what is read", "statement": "From a FLEX profile file with any number of sets, thicknesses and angles exactly the set titles (without the words 'profile set'), thicknesses, polar headers and coefficients written are read, in order; up to three lines after the last set are ignored.", "quantifier": "every file of sets whose announced counts agree with what follows", "why_tests_cant": "There are unboundedly many layouts of sets; the header is read through the file iterator and the polars through readline, so one line too many shifts all that follows.", "anchors": ["weio/flex_profile_file.py: FLEXProfileFile._read"]}
{"id": "C100", "title": "A FLEX profile file which ends early never gives incomplete polars", "statement": "Reading a FLEX profile file cut after any of its lines raises BrokenFormatError if the cut is among the polars of a set, WrongFormatError if it is among the first four lines of the file, and otherwise gives exactly the complete sets before the cut.", "quantifier": "every file, every line where it may end", "why_tests_cant": "Every possible place of the cut would have to be tried for every layout.", "anchors": ["weio/flex_profile_file.py: FLEXProfileFile._read"]}
{"id": "C101", "title": "Rows of FLEX polars which do not have four numbers are refused", "statement": "A FLEX profile file with a row of a polar that does not consist of four numbers is refused with BrokenFormatError.", "quantifier": "every file, every place of the row, every content of the row", "why_tests_cant": "The row can be at any place and have any content.", "anchors": ["weio/flex_profile_file.py: FLEXProfileFile._read (read_polars)"]}
{"id": "C102", "title": "Every polar of a FLEX profile file has its data frame", "statement": "toDataFrame() of a FLEX profile object gives one data frame per polar, in the order of the file, with the coefficients read, named by the number of the set and the thickness.", "quantifier": "every object", "why_tests_cant": "Collisions of names depend on the thicknesses of a file and on how they are printed.", "anchors": ["weio/flex_profile_file.py: FLEXProfileFile._toDataFrame"]}
{"id": "C103", "title": "What a FLEX blade file says is what is read", "statement": "From a FLEX blade file of version 0, 1, 2 or 3 with any number of sections exactly the prebend angle, dampings, profile file name and section values written are read; in the table every section has its structural and aerodynamic numbers under the names of the columns of that version (without the repeated position), and missing values in all other columns.", "quantifier": "every file of the four versions, every number of sections, every number", "why_tests_cant": "Columns differ between versions in number and order; a swapped pair is seen only by comparing every column of files of every version.", "anchors": ["weio/flex_blade_file.py: FLEXBladeFile._read, _toDataFrame"]}
{"id": "C104", "title": "A FLEX blade file which ends early never gives an incomplete table", "statement": "Reading a FLEX blade file that ends before the end of its aerodynamic rows raises an exception; without its last line it is read with an empty profile file name and all else as written.", "quantifier": "every file, every line where it may end", "why_tests_cant": "Every place of the cut would have to be tried for every file.", "anchors": ["weio/flex_blade_file.py: FLEXBladeFile._read"]}
{"id": "C105", "title": "Rows of a FLEX blade file with too few numbers are refused", "statement": "A FLEX blade file with a structural or aerodynamic row that does not start with as many numbers as its version has columns is refused with WrongFormatError.", "quantifier": "every file, every place of the row, every content of the row", "why_tests_cant": "The row can be at any place and have any content.", "anchors": ["weio/flex_blade_file.py: FLEXBladeFile._read"]}
{"id": "C106", "title": "What a small YAML file says is what is read", "statement": "yaml_read of a file of lines 'key: value', matrices 'key:' followed by lines '- [a, b, ..]', blank lines and comments gives exactly the keys and values written, in order: integers as integers, other numbers as floats, other values as text without surrounding blanks, matrices of integers as integer arrays, matrices with a real number in the first row as float arrays.", "quantifier": "every file of such parts in any order, every number of rows and columns", "why_tests_cant": "There are unboundedly many files; where a matrix ends depends on what follows it.", "anchors": ["weio/mini_yaml.py: yaml_read"]}
{"id": "C107", "title": "Rows of a matrix in a small YAML file with another number of elements are refused", "statement": "yaml_read refuses a matrix in which a row does not have as many elements as the first row.", "quantifier": "every file, every matrix, every row", "why_tests_cant": "The row can be at any place and have any length.", "anchors": ["weio/mini_yaml.py: yaml_read (readDashList)"]}
{"id": "C108", "title": "A matrix of real numbers in a small YAML file is read however its numbers are written", "statement": "yaml_read gives the float array of a matrix of real numbers whether or not some rows consist of integers.", "quantifier": "every matrix of real numbers", "why_tests_cant": "It depends on which row has only integers.", "anchors": ["weio/mini_yaml.py: yaml_read (readDashList)"]}
{"id": "C109", "title": "Lines of a small YAML file which are no entries are refused", "statement": "yaml_read raises an exception for a file with a line, neither blank nor a comment nor a matrix row, which has no colon or several, and for a file which ends with a key without a value.", "quantifier": "every file, every place of the line", "why_tests_cant": "The line can be anywhere in any file.", "anchors": ["weio/mini_yaml.py: yaml_read"]}
{"id": "C110", "title": "What a HAWC2 st file says is what is read", "statement": "StFile of a text in which main sets with different numbers are marked by a hash and their sets, with different numbers, by a dollar, each set announced with its number of rows and followed by as many rows of numbers (a comment may follow a semicolon), the last set having 19 or 30 columns, gives main_data_sets with these main sets, sets and rows in the order of the text, and the names of columns of the form with 19 or 30 columns.", "quantifier": "for every text before the first hash, every list of main sets, sets, rows, comments and lines between them", "why_tests_cant": "texts, sets and rows are unbounded", "anchors": ["weio/wetb/hawc2/st_file.py:66-107"]}
{"id": "C111", "title": "HAWC2 st files which cannot be understood are refused", "statement": "Wherever it stands in the file, a set announced with more rows than there are lines up to the next dollar, hash or the end raises IndexError; a text in a row which is no number and rows with different numbers of columns raise ValueError; a set number used twice in a main set raises AssertionError; a dollar which is not followed by two whole numbers raises ValueError; a last set with neither 19 nor 30 columns raises TypeError; a file without any set is refused.", "quantifier": "for every well-formed beginning of the file, every such set and every continuation of the text", "why_tests_cant": "what stands before and after the wrong set is unbounded", "anchors": ["weio/wetb/hawc2/st_file.py:79-103"]}
{"id": "C112", "title": "A HAWC2 st file cut short in its last set is refused", "statement": "When the text ends, with or without a newline, after any number of complete rows of the last set smaller than the announced number, reading raises an exception: no shorter set is given.", "quantifier": "for every file and every number of remaining rows of the last set", "why_tests_cant": "number of sets and rows is unbounded", "anchors": ["weio/wetb/hawc2/st_file.py:83-103"]}
{"id": "C113", "title": "Main sets of a HAWC2 st file with the same number are not lost silently", "statement": "All sets of a file which is read are found under the number of their main set: a file in which two main sets have the same number is refused, as it is for two sets of a main set.", "quantifier": "for every file", "why_tests_cant": "needs files which users write by mistake", "anchors": ["weio/wetb/hawc2/st_file.py:79-96"]}
{"id": "C114", "title": "A HAWC2 st file with a set of neither 19 nor 30 columns is refused", "statement": "Reading raises TypeError when the rows of some set have neither 19 nor 30 numbers, so that toDataFrame of a file which was read does not fail.", "quantifier": "for every file and every set", "why_tests_cant": "the check is made on one set only; sets are unbounded", "anchors": ["weio/wetb/hawc2/st_file.py:98-103", "weio/hawc2_st_file.py:50-64"]}
{"id": "C115", "title": "A saved HAWC2 st file is read back", "statement": "What HAWC2StFile.write (StFile.save) writes for main sets and sets with different numbers, of rows of 19 or 30 numbers, is accepted by HAWC2StFile and read back as the same main sets, sets and rows, as far as the numbers are printed.", "quantifier": "for every object and all finite numbers", "why_tests_cant": "objects and numbers are unbounded; the failure needs numbers that fill the width of a column", "anchors": ["weio/wetb/hawc2/st_file.py:121-161", "weio/hawc2_st_file.py:27-44"]}
{"id": "C116", "title": "Data frames of a HAWC2 st file hold its sets", "statement": "HAWC2StFile.toDataFrame gives for each set of 19 or 30 columns, in the order of the file, a data frame with its rows under the names of columns of its own form; names of data frames are made of the two numbers, and different sets have different names.", "quantifier": "for every object with sets of 19 or 30 columns, of one form or both", "why_tests_cant": "number of sets, numbers of the sets and rows are unbounded", "anchors": ["weio/hawc2_st_file.py:50-64"]}
{"id": "C117", "title": "Functions of the columns of a HAWC2 st file interpolate the set asked for", "statement": "For a set of as many columns as there are names and increasing radii, the function of a column gives without radius the numbers of the column, at a radius between two rows the straight line between their numbers, and beyond the first or last row the number of this row; radius_st gives the radius of the row that is nearest; a set that is not there raises KeyError and another name AttributeError.", "quantifier": "for every set with increasing radii, every column and every radius", "why_tests_cant": "radii, rows and numbers are unbounded", "anchors": ["weio/wetb/hawc2/st_file.py:105-119"]}
{"id": "C118", "title": "Functions of the columns of a HAWC2 st file give the column of their name in sets of both forms", "statement": "In a file with sets of 19 columns and sets of 30 columns, the function of a name gives for each set which has a column of that name the numbers of this column.", "quantifier": "for every file and every set", "why_tests_cant": "needs a file of both forms", "anchors": ["weio/wetb/hawc2/st_file.py:98-113"]}
{"id": "C119", "title": "set_value of a HAWC2 st file changes one column of one set", "statement": "After set_value with as many numbers as the set has rows, the column of that name holds these numbers, all other columns of the set, all other sets and the names of columns are as before; one number is set in all rows; a name that is no column and another number of numbers raise ValueError, a set that is not there KeyError.", "quantifier": "for every object, set, column and numbers", "why_tests_cant": "frame condition over unbounded sets", "anchors": ["weio/wetb/hawc2/st_file.py:125-128"]}
{"id": "C120", "title": "The stiffness matrix of a HAWC2 beam element is symmetric and blind to rigid motions", "statement": "element_stiffnessmatrix is symmetric, a displacement of the element as a rigid body together with a small rotation gives no force on any of the twelve degrees of freedom, and at the radius of a row of a file of 19 columns the matrix is the one of the numbers of that row; for a file of 30 columns None is returned.", "quantifier": "for all section properties, lengths other than zero, displacements and rotations (exact arithmetic)", "why_tests_cant": "real numbers are infinite", "anchors": ["weio/wetb/hawc2/st_file.py:163-233"]}
{"id": "C121", "title": "The stiffness matrix of a HAWC2 beam element is positive except for rigid motions", "statement": "For a section of positive properties and a positive length, no displacement of the two nodes gives negative work with element_stiffnessmatrix, and only rigid displacements and rotations give none.", "quantifier": "for all positive section properties, lengths and displacements (exact arithmetic)", "why_tests_cant": "real numbers are infinite", "anchors": ["weio/wetb/hawc2/st_file.py:163-233"]}
{"id": "C122", "title": "Sideways stiffness of a HAWC2 beam element adds bending and shear flexibility", "statement": "The stiffness of element_stiffnessmatrix for a sideways displacement along x (y) is the inverse of the sum of the bending flexibility with I_y (I_x) and the shear flexibility with the shear factor k_x (k_y).", "quantifier": "for all positive section properties and lengths (exact arithmetic)", "why_tests_cant": "needs a section that is not symmetric; real numbers are infinite", "anchors": ["weio/wetb/hawc2/st_file.py:184-202"]}
{"id": "C123", "title": "Shape functions of a HAWC2 beam element give the nodes at its ends and keep rigid motions", "statement": "shape_function_ori at z=0 and z=length gives the displacements and rotations of the first and of the second node for all displacements, and at every z it gives for a rigid displacement and small rotation of the nodes the rigid displacement and rotation at z.", "quantifier": "for all positive section properties, lengths, positions and displacements (exact arithmetic)", "why_tests_cant": "real numbers are infinite", "anchors": ["weio/wetb/hawc2/st_file.py:235-278"]}
{"id": "C124", "title": "Tables of a FAST input file are shown as data frames", "statement": "For a FAST input file without tower modes whose tables have numbers or texts in every row for each of their labels, toDataFrame of the base class gives no frame for a file without tables, one data frame for one table, and for several a dictionary of them under the labels of the tables; every frame has the cells of its table and the names of its columns with the units in square brackets.", "quantifier": "for all data of a file with different table labels", "why_tests_cant": "lists of tables, names, units and rows are unbounded", "anchors": ["weio/fast_input_file.py:753-770", "weio/fast_input_file.py:800-807", "weio/fast_input_file.py:824-827"]}
{"id": "C125", "title": "A FAST input file that was read can be shown as data frames", "statement": "Every FAST input file which was read without an exception can be converted by toDataFrame.", "quantifier": "for all files", "why_tests_cant": "needs a table with another number of columns than names", "anchors": ["weio/fast_input_file.py:753-827"]}
{"id": "C126", "title": "The data frame of an ElastoDyn tower file has the mode shapes", "statement": "toDataFrame of a tower file gives its table with four more columns, the fore-aft and side-side modes, each the polynomial of powers 2 to 6 of the first column with the coefficients in the file; a missing coefficient raises KeyError.", "quantifier": "for all heights and coefficients (exact arithmetic)", "why_tests_cant": "real numbers are infinite", "anchors": ["weio/fast_input_file.py:770-799"]}
{"id": "C127", "title": "The data frame of BeamDyn sections has every term of the matrices under its name", "statement": "toDataFrame of a BeamDyn blade file gives one row per section and 73 columns of different names, Span, K11 to K66 and M11 to M66, each with this term of the section, the diagonal terms first.", "quantifier": "for all numbers of sections and matrices", "why_tests_cant": "numbers of sections and matrices are unbounded", "anchors": ["weio/fast_input_file.py:808-823"]}
{"id": "C128", "title": "The data frame of an ElastoDyn blade file has the mode shapes", "statement": "toDataFrame of an ElastoDyn blade file gives its table with two flap modes and an edge mode, each the polynomial of powers 2 to 6 of the column BlFract with the coefficients in the file; without that column it raises KeyError.", "quantifier": "for all positions and coefficients (exact arithmetic)", "why_tests_cant": "real numbers are infinite", "anchors": ["weio/fast_input_file.py:1359-1380"]}
{"id": "C129", "title": "The data frame of an AeroDyn blade file has the aerodynamic centre and the point at half chord", "statement": "toDataFrame of an AeroDyn blade file gives its table with the position of the aerodynamic centre, from half of the chord at the root to a quarter over the first 15% of the nodes and a quarter afterwards, never out of this range, and the coordinates of the point at half chord, away from the aerodynamic centre by the chord between them in the direction of the twist.", "quantifier": "for all tables with six columns at least (exact arithmetic, sine and cosine as parameters)", "why_tests_cant": "numbers of nodes are unbounded", "anchors": ["weio/fast_input_file.py:1418-1473"]}
{"id": "C130", "title": "The data frame of an AeroDyn polar has the normal force coefficients", "statement": "toDataFrame of a polar file with data for unsteady aerodynamics gives each table with the normal force coefficient with and without the drag at zero lift, its linear part between -20 and 30 degrees, and the points around alpha2, alpha1 and alpha0 if there are points below them; each table uses the values of its own number.", "quantifier": "for all polars and numbers of tables (exact arithmetic, sine and cosine as parameters)", "why_tests_cant": "numbers of tables and points are unbounded", "anchors": ["weio/fast_input_file.py:1590-1631"]}
{"id": "C131", "title": "A polar file without data for unsteady aerodynamics can be shown as a data frame", "statement": "toDataFrame of an AeroDyn polar file with InclUAdata False gives the table of the polar.", "quantifier": "for all polar files", "why_tests_cant": "needs a file without this data", "anchors": ["weio/fast_input_file.py:1604-1607"]}
{"id": "C132", "title": "The data frame of a superelement names the forces and the degrees of freedom", "statement": "toDataFrame of an ExtPtfm file with n degrees of freedom, six or more, gives the loads with the time, six interface forces and moments, and n-6 columns numbered from one with three digits at least; loads with another number of columns raise ValueError.", "quantifier": "for all numbers of degrees of freedom and rows", "why_tests_cant": "numbers of degrees of freedom are unbounded", "anchors": ["weio/fast_input_file.py:1792-1799"]}
{"id": "C133", "title": "The header of a HAWC2 result file is read by its columns", "statement": "Reading a .sel file gives the number of scans and channels, equidistant times up to the last one, and for each channel the name in columns 13 to 43, the unit in columns 44 to 54 and the description in the rest, without blanks at the ends; for binary results the scale factors that follow the channels after two lines.", "quantifier": "for all headers with any number of channels", "why_tests_cant": "numbers of channels and texts are unbounded", "anchors": ["weio/wetb/hawc2/Hawc2io.py:60-165"]}
{"id": "C134", "title": "A binary HAWC2 result gives the scaled samples of each channel", "statement": "Reading a binary result with enough samples gives for scan j and channel i the 16-bit number at position i times the number of scans plus j, times the scale factor of the channel.", "quantifier": "for all numbers of scans, channels, samples and scale factors", "why_tests_cant": "numbers of scans and channels are unbounded", "anchors": ["weio/wetb/hawc2/Hawc2io.py:240-251", "weio/hawc2_dat_file.py:37-51"]}
{"id": "C135", "title": "A cut binary HAWC2 result is refused", "statement": "Reading a binary result with fewer samples than the header says raises WrongFormatError.", "quantifier": "for all lengths of the file", "why_tests_cant": "each length behaves on its own", "anchors": ["weio/wetb/hawc2/Hawc2io.py:240-251"]}
{"id": "C136", "title": "A text HAWC2 or BHAWC result gives the columns of the channels", "statement": "Reading a text result gives the first numbers of each line that is not blank, as many as channels; another number of lines than scans, a line with too few columns or a text which is not a number raises WrongFormatError.", "quantifier": "for all texts", "why_tests_cant": "numbers of lines and columns are unbounded", "anchors": ["weio/wetb/hawc2/Hawc2io.py:254-259", "weio/hawc2_dat_file.py:37-51"]}
{"id": "C137", "title": "Saving a HAWC2 result and reading it keeps its content", "statement": "A HAWC2 result that is saved and read has the same numbers as printed, the same names, units without brackets, and descriptions.", "quantifier": "for all results", "why_tests_cant": "numbers of scans, channels and texts are unbounded", "anchors": ["weio/hawc2_dat_file.py:104-151", "weio/wetb/hawc2/Hawc2io.py:60-165"]}
{"id": "C138", "title": "A saved HAWC2 result can be read", "statement": "A HAWC2 result which is saved by the library can be read by it whatever the last time is.", "quantifier": "for all results", "why_tests_cant": "depends on how the last time is printed", "anchors": ["weio/hawc2_dat_file.py:116-144", "weio/wetb/hawc2/Hawc2io.py:145-149"]}
{"id": "C139", "title": "The header of a BHAWC result file is read", "statement": "Reading a BHAWC .sel file gives the number of scans, the times, and the description, the name and the unit of each channel, with columns separated by tabs or by more spaces than there are together inside the texts.", "quantifier": "for all headers with any number of channels", "why_tests_cant": "numbers of channels and texts are unbounded", "anchors": ["weio/wetb/hawc2/Hawc2io.py:86-139"]}
{"id": "C140", "title": "Saving a BHAWC result with plain texts and reading it keeps its content", "statement": "A BHAWC result with three channels or more that is saved and read has the same numbers as printed, the first 26 characters of names and descriptions, and the units in brackets, if these texts are not blank, have no tab and no bracket, the units no blank, and none of the first three channels mentions the word channel.", "quantifier": "for all such results", "why_tests_cant": "numbers of scans, channels and texts are unbounded", "anchors": ["weio/hawc2_dat_file.py:104-133", "weio/wetb/hawc2/Hawc2io.py:86-139"]}
{"id": "C141", "title": "A saved BHAWC result can be read", "statement": "A BHAWC result which is saved by the library can be read by it with all its channels.", "quantifier": "for all results", "why_tests_cant": "depends on the number of channels and on their texts", "anchors": ["weio/hawc2_dat_file.py:121-133", "weio/wetb/hawc2/Hawc2io.py:86-139"]}
{"id": "C142", "title": "Reading an OpenFAST input deck gives each module the file the main file refers to", "statement": "After FASTInputDeck(main file) on an OpenFAST model, each of ElastoDyn, InflowWind, AeroDyn15, ServoDyn, HydroDyn, MAP, MoorDyn and BeamDyn that is switched on by the main file holds the content of the file the main file refers to, found from the directory of the main file; it holds None if files of this kind are not asked for, the name stands for an unused file or the file is missing. Modules that are switched off hold None.", "quantifier": "for all main files, file systems, lists of kinds asked for, and all successful reads into a new object", "why_tests_cant": "Decks differ in any combination of flags, names and missing files; a test reads one deck.", "anchors": ["weio/fast_input_deck.py:24-84", "weio/fast_input_deck.py:220-337"]}
{"id": "C143", "title": "Tower and blade files are found from the directory of their module file", "statement": "The tower and blade files of ElastoDyn (BldFile(1), else BldFile1) and the blade file of BeamDyn are looked for in the directory of the file of the module that names them, whether names are quoted or not.", "quantifier": "for all successfully read OpenFAST models and all relative names", "why_tests_cant": "The directory arithmetic on quoted names only goes wrong for particular names.", "anchors": ["weio/fast_input_deck.py:168-182", "weio/fast_input_deck.py:249-292"]}
{"id": "C144", "title": "AeroDyn blade and polar files are found from the directory of the AeroDyn file", "statement": "The blade file and polars of AeroDyn 15 are looked for in the directory of the AeroDyn file, quoted or not; af_data has one entry per polar name in the order of the file, None for polars that are missing or cannot be read.", "quantifier": "for all successfully read OpenFAST models, all lists of relative polar names", "why_tests_cant": "Tests use complete decks, in which no polar is missing.", "anchors": ["weio/fast_input_deck.py:87-142"]}
{"id": "C145", "title": "Only the kinds of files asked for are read", "statement": "After reading an OpenFAST model, inputfiles lists only kinds of files that were asked for, each with the path of a file that could be read; modules whose kind was not asked for hold None (SubDyn is the subject of a property of its own).", "quantifier": "for all lists of kinds and all models", "why_tests_cant": "There are 2^15 lists of kinds.", "anchors": ["weio/fast_input_deck.py:40-52", "weio/fast_input_deck.py:310-337"]}
{"id": "C146", "title": "Missing module files do not stop the reading of a deck", "statement": "A complete OpenFAST main file (all flags and references, not AeroDyn 14) whose AeroDyn and BeamDyn files name their blades and polars is read without an exception whichever other files are missing; if the main file itself is missing an exception is raised.", "quantifier": "for all file systems without damaged files and all such decks", "why_tests_cant": "Any subset of the files of a deck may be missing.", "anchors": ["weio/fast_input_deck.py:220-337"]}
{"id": "C147", "title": "SubDyn files are read when they are asked for", "statement": "With CompSub=1, the SubDyn file is read exactly when files of kind SD are asked for, and does not stand for a file of another kind in inputfiles.", "quantifier": "for all lists of kinds and all models", "why_tests_cant": "Tests read all kinds of files.", "anchors": ["weio/fast_input_deck.py:276-278"]}
{"id": "C148", "title": "Decks with AeroDyn 14 can be read", "statement": "With CompAero=1, the AeroDyn 14 file the main file refers to is read and held under AeroDyn14.", "quantifier": "for all models with CompAero=1", "why_tests_cant": "The branch is only reached by decks with AeroDyn 14.", "anchors": ["weio/fast_input_deck.py:87-142", "weio/fast_input_deck.py:262-265"]}
{"id": "C149", "title": "Reading another deck into the same object forgets the first deck", "statement": "After read(main file 2) on an object that held another model, each module holds what the second model says: its file when it is on, None when it is off.", "quantifier": "for all pairs of models read one after the other", "why_tests_cant": "Objects are rarely read twice in tests.", "anchors": ["weio/fast_input_deck.py:220-304"]}
{"id": "C150", "title": "Absolute names of module files are followed", "statement": "Absolute names of blade and polar files, quoted as in the files of OpenFAST, lead to the files they name wherever the file of the module is.", "quantifier": "for all names and all directories of the AeroDyn file", "why_tests_cant": "Test decks use relative names.", "anchors": ["weio/fast_input_deck.py:107-135", "weio/fast_input_deck.py:286-292"]}
{"id": "C151", "title": "A TurbSim time series file is read as what it says", "statement": "Reading a TurbSim time series file (`TurbSimTSFile`) with at most ten lines before the one that mentions `nComp` (in any case) gives those lines without surrounding blanks as `header`, the first words of the next lines as `nComp`, number of points and `ID`, the two coordinates of every point in order, and every row of numbers up to the first blank line or the end of the file, whether or not the last line ends with a newline.", "quantifier": "for all header lines, counts, points, numbers of rows and columns, trailing texts", "why_tests_cant": "tests read one or two sample files; the headers, counts and trailing texts are unbounded", "anchors": ["turbsim_ts_file.py:21-50"]}
{"id": "C152", "title": "A TurbSim time series survives saving", "statement": "A time series with one to ten stripped header lines that do not mention nComp, at most three components, and rows of equal positive length, is written and read back with the same header, nComp, ID, points and data, each number being the one its 16-character text is read as, when these texts start with a blank.", "quantifier": "for all objects satisfying the stated conditions, any number of points and rows", "why_tests_cant": "a round trip test covers one file", "anchors": ["turbsim_ts_file.py:21-50", "turbsim_ts_file.py:60-85"]}
{"id": "C153", "title": "A TurbSim time series without title lines survives saving", "statement": "A time series file whose first line is the nComp line is read, saved and read back with the same (empty) header and the same counts, points and data.", "quantifier": "for all objects without header lines", "why_tests_cant": "the sample files all have title lines", "anchors": ["turbsim_ts_file.py:71"]}
{"id": "C154", "title": "Damaged rows and counts of TurbSim time series files are refused", "statement": "Reading a time series file in which a data row contains a word that is not a number, or two data rows have different numbers of values, raises ValueError; if nComp, the number of points or the reference point is missing or not a whole number, or the number of points is negative, an exception is raised.", "quantifier": "for all files, positions of the damage and numbers of rows", "why_tests_cant": "damage can occur in any row of any file", "anchors": ["turbsim_ts_file.py:34-38", "turbsim_ts_file.py:50"]}
{"id": "C155", "title": "Every point of a TurbSim time series file has two coordinates", "statement": "Reading a time series file one of whose point lines does not hold exactly two numbers, or that ends before its last point line, raises an exception.", "quantifier": "for all files, numbers of points and damaged lines", "why_tests_cant": "broadcasting of a single number is invisible in tests on proper files", "anchors": ["turbsim_ts_file.py:41-44"]}
{"id": "C156", "title": "Columns of the time series data frame name component and point", "statement": "If nComp is between 0 and 3 and every row has 1 + nComp*nPoints values, `toDataFrame` gives `TimeSeries` with the rows of the file, first column `Time_[s]`, and column 1 + ic*nPoints + ip named `Point{ip+1}{u,v,w}_[m/s]`; all names are different; `Points` has the coordinates of the points. If the rows have another number of values ValueError is raised.", "quantifier": "for all numbers of components up to three, all numbers of points and rows", "why_tests_cant": "tests look at one number of points", "anchors": ["turbsim_ts_file.py:52-58", "turbsim_ts_file.py:93-99"]}
{"id": "C157", "title": "Texts without an nComp line are not read as TurbSim time series", "statement": "Reading a text none of whose first eleven lines mentions nComp raises an exception, a BrokenFormatError if it has twelve lines or more.", "quantifier": "for all texts", "why_tests_cant": "format detection relies on the exception for every foreign text", "anchors": ["turbsim_ts_file.py:27-38"]}
{"id": "C158", "title": "Conversion of a TurbSim box to Mann boxes", "statement": "`toMannBox(base)` of a box with nt, ny, nz > 0 writes exactly the files `base_{nt}x{ny}x{nz}.u`, `.v`, `.w`; reading each with `MannBoxFile(name)` without dimensions gives an nt x ny x nz field whose value at (it,iy,iz) is the stored 4-byte value of component u (minus the removed constant or time mean), v, w at that index. Without a base, the name of the TurbSim file without its extension is used.", "quantifier": "for all boxes, base names (with directories and dots), constants and options", "why_tests_cant": "the conversion is not tested; the dimensions are inferred from the name for every base name", "anchors": ["turbsim_file.py:707-732", "mannbox_file.py:309-324", "mannbox_file.py:113-163"]}
{"id": "C159", "title": "removeAllUMean leaves fluctuations only", "statement": "With `removeAllUMean=True` the time average of the converted u component is zero at every point, whatever constant is given, v and w are unchanged.", "quantifier": "for all boxes and points, in exact arithmetic", "why_tests_cant": "tests look at one box", "anchors": ["mannbox_file.py:315-323"]}
{"id": "C160", "title": "Conversion of Mann boxes to a TurbSim box", "statement": "`fromMannBox(u, v, w, dx, U, y, z, addU)` of three nt x ny x nz fields with ny increasing y and nz z coordinates gives a box whose components at every index are u (+ addU), v and w, with times i*dx/U for i < nt, the coordinates given, zRef the height closest to the middle of the box and uRef the mean of u there.", "quantifier": "for all fields, dimensions, coordinates, dx and U other than zero, in exact arithmetic", "why_tests_cant": "the conversion is not tested", "anchors": ["turbsim_file.py:663-705"]}
{"id": "C161", "title": "TurbSim to Mann boxes and back", "statement": "Writing a box with `toMannBox(removeUConstant=c)`, reading the three files by their names and calling `fromMannBox` with the coordinates of the box and addU=c gives the velocities of the box up to the storage in four bytes, with the same dimensions and coordinates, and the same times if they are i*dx/U.", "quantifier": "for all boxes, base names and constants", "why_tests_cant": "composition of four functions, none of them tested together", "anchors": ["turbsim_file.py:663-732", "mannbox_file.py:89-163"]}
{"id": "C162", "title": "Mann fields of different dimensions are refused", "statement": "`fromMannBox` raises an exception when v or w does not have the dimensions of u.", "quantifier": "for all fields", "why_tests_cant": "numpy repeats arrays silently along dimensions of size one", "anchors": ["turbsim_file.py:688-691"]}
{"id": "C163", "title": "Mann boxes with decreasing y or without time step are refused", "statement": "`fromMannBox` raises an exception when y[0] > y[-1], when dx is zero or when U is zero.", "quantifier": "for all fields and coordinates", "why_tests_cant": "error branches are not tested", "anchors": ["turbsim_file.py:681-686"]}
{"id": "C164", "title": "A converted box forgets the box read before", "statement": "After `fromMannBox` nothing of a TurbSim file read before into the same object is left.", "quantifier": "for all objects and fields", "why_tests_cant": "needs two operations on one object", "anchors": ["turbsim_file.py:688-705"]}
{"id": "C165", "title": "Probe files hold the velocities at the closest grid points", "statement": "`writeProbes(file, yProbe, zProbe)` writes a time column and, for the i-th y and j-th z, the columns 1+3*(i*nz+j)+k (k=0,1,2) with components u, v, w at the grid point closest to (y,z), named after the component and the coordinates of that grid point; every row has a value for every column.", "quantifier": "for all boxes, all lists of probes", "why_tests_cant": "order of nested loops and nearest points for arbitrary lists", "anchors": ["turbsim_file.py:748-766"]}
{"id": "C166", "title": "Columns of a probe file have different names", "statement": "No two columns of a file written by `writeProbes` for different grid points have the same name.", "quantifier": "for all boxes and probes", "why_tests_cant": "coordinates are rounded to whole metres in the names", "anchors": ["turbsim_file.py:761-762"]}
{"id": "C167", "title": "Bladed output: a sensor file gives what its lines say", "statement": "Reading a Bladed sensor file (.%nn) gives the number of dimensions, channels and steps, the precision, the category, the channel names (quoted or bare, possibly continued on the next line), the units turned into SI units, the start and step of the time axis, and the sections of a three-dimensional result, exactly as the lines of the file state them.", "quantifier": "all sensor files of two or three dimensions whose lines state each entry once, in any order with NDIMENS before DIMENS, among the first 31 lines", "why_tests_cant": "the order of the lines, the spelling of names, continuation lines and units combine freely; test files have a few fixed layouts", "anchors": ["weio/bladed_out_file.py: read_bladed_sensor_file"]}
{"id": "C168", "title": "Bladed output: a sensor file without names or sizes is refused", "statement": "If a Bladed sensor file is read at all, then among its first 31 lines there are a line of channel names and a line with the number of dimensions before one with the sizes, and there are as many names as channels.", "quantifier": "all files that are read", "why_tests_cant": "refusal of every incomplete file cannot be tested by examples of incomplete files", "anchors": ["weio/bladed_out_file.py: read_bladed_sensor_file"]}
{"id": "C169", "title": "Bladed output: binary numbers go to their step, section and channel", "statement": "A binary Bladed data file of the size its sensor file states gives, for channel c at step t (and section s), number t*nSensors+c resp. (t*nSections+s)*nSensors+c of the file; a file of another size is refused with ValueError.", "quantifier": "all sensor files, all byte contents, single and double precision", "why_tests_cant": "an index error may show only for some shapes; tests use one or two files", "anchors": ["weio/bladed_out_file.py: read_bladed_output, OrgData"]}
{"id": "C170", "title": "Bladed output: the table of one binary result", "statement": "Reading one binary Bladed result gives a table with the time k*step+start as first column and one column for each channel (at each section), in order, labelled `name [unit]`, with the numbers of the data file; without a step there is no time column; a step without a start is refused with KeyError.", "quantifier": "all sensor files and data files that fit together, with distinct labels", "why_tests_cant": "the table combines sensor file, data file, labels and time; tests compare single values", "anchors": ["weio/bladed_out_file.py: BladedFile._read, toDataFrame"]}
{"id": "C171", "title": "Bladed output: numbers are decoded in the format the sensor file states", "statement": "The numbers of a binary Bladed data file are decoded in the FORMAT its sensor file states.", "quantifier": "all formats, all byte contents", "why_tests_cant": "test files have one format", "anchors": ["weio/bladed_out_file.py: read_bladed_sensor_file, read_bladed_output"]}
{"id": "C172", "title": "Bladed output: a three-dimensional text file that does not fit is refused", "statement": "A text data file of a three-dimensional Bladed result either gives its numbers by step, section and channel or is refused.", "quantifier": "all text data files", "why_tests_cant": "damaged files are not among test files", "anchors": ["weio/bladed_out_file.py: read_bladed_output"]}
{"id": "C173", "title": "Bladed output: channels keep their units when files are put together", "statement": "When the results of one length of a Bladed project are put together in one table, each channel has the unit and the values of its own file.", "quantifier": "all lists of two-dimensional results of equal length", "why_tests_cant": "depends on the counts of units of all files read before", "anchors": ["weio/bladed_out_file.py: read_bladed_sensor_file, BladedFile._read"]}
{"id": "C174", "title": "Bladed output: the data file read is the one asked for", "statement": "Opening `base.$nn` reads the sensor file `base.%nn` and the data file `base.$nn`.", "quantifier": "all paths", "why_tests_cant": "paths with special characters are not among test paths", "anchors": ["weio/bladed_out_file.py: read_bladed_output, BladedFile._read"]}
{"id": "C175", "title": "Bladed output: the table of one text result", "statement": "Reading one two-dimensional Bladed result with a text data file gives a table whose column c has entry c of every row of the file.", "quantifier": "all numbers of steps and channels", "why_tests_cant": "the smallest files behave differently (dimensions of one are dropped)", "anchors": ["weio/bladed_out_file.py: read_bladed_output, BladedFile._read"]}
{"id": "C176", "title": "BModes output: frequencies and mode shapes", "statement": "Reading a BModes output file gives, in the order of the file, the frequency of every mode and the table of numbers below it; a file without the name of the program in its first line is refused with WrongFormatError.", "quantifier": "all texts made of a first line, other lines and modes (number text behind `freq = `, three lines, rows, a line that ends the table); any number of modes and rows", "why_tests_cant": "tests read two sample files; which lines end a table, or count as above it, is a matter of all texts", "anchors": ["weio/bmodes_out_file.py: BModesOutFile._read"]}
{"id": "C177", "title": "BModes output: the tables of the modes", "statement": "The tables of a BModes file are called Mode_1, Mode_2, \u2026 in the order of the frequencies, with six named columns and the rows of the mode; a mode with another number of columns, or none, gives ValueError.", "quantifier": "all files as for the reading of BModes output", "why_tests_cant": "sample files have six columns and at least one row in each mode", "anchors": ["weio/bmodes_out_file.py: BModesOutFile._read, BModesOutFile.toDataFrame"]}
{"id": "C178", "title": "BModes output: incomplete files are refused", "statement": "A BModes file that ends in the middle of a mode is not read as if it were complete.", "quantifier": "all files cut off in a mode", "why_tests_cant": "tests contain complete files only", "anchors": ["weio/bmodes_out_file.py: BModesOutFile._read"]}
{"id": "C179", "title": "HAWCStab2 power file: labels and rows", "statement": "The labels of a HAWCStab2 power file that is read are the fifteen names and units of its first line, with underscores for spaces and without the numbers of the columns, and the rows of its table are those of its other lines.", "quantifier": "all texts with a header of this form; any number of rows", "why_tests_cant": "one sample file; the position of numbers, names and spaces in the header is free", "anchors": ["weio/hawcstab2_pwr_file.py: HAWCStab2PwrFile._read"]}
{"id": "C180", "title": "HAWCStab2 files: any number of operating points or sections is read", "statement": "A power file with fifteen columns, and an induction file with 38, 14 or 18 columns, are read whatever the number of their rows (one or more).", "quantifier": "all texts with a proper header and complete rows", "why_tests_cant": "the sample files have many rows; a file of one row is dropped to one dimension by loadtxt", "anchors": ["weio/hawcstab2_pwr_file.py: HAWCStab2PwrFile._read", "weio/hawcstab2_ind_file.py: HAWCStab2IndFile._read"]}
{"id": "C181", "title": "HAWCStab2 files: other files are refused with WrongFormatError", "statement": "A file whose first line does not begin with `#`, or whose header has another number of columns, is refused with WrongFormatError, so that format detection can go on.", "quantifier": "all texts", "why_tests_cant": "tests read proper files only; both `.pwr`/`.ind` and `.txt` files reach these readers", "anchors": ["weio/hawcstab2_pwr_file.py: HAWCStab2PwrFile._read", "weio/hawcstab2_ind_file.py: HAWCStab2IndFile._read"]}
{"id": "C182", "title": "HAWCStab2 induction file: labels and type", "statement": "The labels of a HAWCStab2 induction file are the names of its first line with `_[unit]` behind them, its rows those of the other lines, and its type follows from the number of columns.", "quantifier": "all texts with a header of this form", "why_tests_cant": "tests check two labels of each sample file; others are wrong in the same file", "anchors": ["weio/hawcstab2_ind_file.py: HAWCStab2IndFile._read"]}
{"id": "C183", "title": "HAWCStab2 induction file: wind speed of the name", "statement": "The wind speed of an induction file `\u2026_u<w>.<extension>` is w/1000, for each of the extensions of the format.", "quantifier": "all names and numbers", "why_tests_cant": "tests use the extension `.ind` only", "anchors": ["weio/hawcstab2_ind_file.py: HAWCStab2IndFile._read, defaultExtensions"]}
{"id": "C184", "title": "HAWCStab2 Campbell file: labels", "statement": "A Campbell file for n modes has the columns wind speed, F1\u2026Fn, D1\u2026Dn (with two or three groups of columns) and R1\u2026Rn (with three); any other number of columns is refused with ValueError.", "quantifier": "all numbers of modes and columns", "why_tests_cant": "there is no test of this reader", "anchors": ["weio/hawcstab2_cmb_file.py: HAWCStab2CmbFile._read"]}
{"id": "C185", "title": "A FLEX documentation file: values of entries", "statement": "The value of an entry `#Key_Sub value [unit]` of a FLEX documentation file read with FLEXDocFile is the number (or the numbers) written behind its name, not those inside units or texts.", "quantifier": "all files and entries", "why_tests_cant": "units with digits are rare in tests", "anchors": ["weio/flex_doc_file.py:147-171", "weio/flex_doc_file.py:79-80"]}
{"id": "C186", "title": "A FLEX documentation file: where entries are found", "statement": "Every entry, table and matrix of a FLEX documentation file is found under its key (and second key) after a read, and the object holds nothing else.", "quantifier": "all files whose parts have different places", "why_tests_cant": "any mixture of parts, notes, blank lines and comments", "anchors": ["weio/flex_doc_file.py:82-181"]}
{"id": "C187", "title": "A FLEX documentation file: matrices", "statement": "A matrix of a FLEX documentation file has all rows written below its name.", "quantifier": "all files and all matrix names the reader knows", "why_tests_cant": "a lost row is not seen unless every matrix is compared", "anchors": ["weio/flex_doc_file.py:56-77", "weio/flex_doc_file.py:129-145"]}
{"id": "C188", "title": "A FLEX documentation file: tables", "statement": "A table of a FLEX documentation file has the labels in its header, with units as name_[unit], or C0, C1, ... if their number is not that of the columns, and the numbers of its lines (Fnd, Twr and COG as 0, 1, 2).", "quantifier": "all files, tables, headers with and without units", "why_tests_cant": "headers of any form and any number of columns", "anchors": ["weio/flex_doc_file.py:84-126"]}
{"id": "C189", "title": "A FLEX documentation file: the global mode shape", "statement": "The shape of the first global mode, four columns without labels, is given with the labels H_[m], U_FA_[-], U_SS_[] and without its first column.", "quantifier": "all files with such a table, wherever it is in the file", "why_tests_cant": "the adjustment is done at several lines and must not be repeated", "anchors": ["weio/flex_doc_file.py:173-181"]}
{"id": "C190", "title": "A FLEX documentation file: repeated entries", "statement": "An entry that is in a FLEX documentation file twice is refused and not replaced silently.", "quantifier": "all files with a repeated entry", "why_tests_cant": "needs wrong files", "anchors": ["weio/flex_doc_file.py:158-171"]}
{"id": "C191", "title": "A FLEX documentation file: refusals", "statement": "A file whose first line is not #Program, a table without rows and a table with a word that is no number are refused with an exception.", "quantifier": "all such files, whatever is in front", "why_tests_cant": "needs wrong files", "anchors": ["weio/flex_doc_file.py:23-28", "weio/flex_doc_file.py:95-117"]}
{"id": "C192", "title": "FLEX output: the table with a sensor file", "statement": "The table of a FLEX result file with a file `sensor` beside it has Time_[s] and, for every line of the sensor file from the third on, a column name_[unit] (unit without brackets); its rows are the times and the scaled samples.", "quantifier": "all result files and sensor files with as many lines as channels", "why_tests_cant": "any number of channels, units and names", "anchors": ["weio/flex_out_file.py:35-69", "weio/flex_out_file.py:131-145"]}
{"id": "C193", "title": "FLEX output: the table without a sensor file", "statement": "Without a sensor file the columns are S0001_[NA], S0002_[NA], ... behind Time_[s], one for each channel.", "quantifier": "all result files", "why_tests_cant": "any number of channels, also more than 9999", "anchors": ["weio/flex_out_file.py:47-50", "weio/flex_out_file.py:147-156"]}
{"id": "C194", "title": "FLEX output: wrong sensor files", "statement": "A sensor file with another number of sensors than the result file, with a line of less than seven words (as an empty line at its end), or with a word that is no number where one is needed is refused with an exception.", "quantifier": "all result files and such sensor files", "why_tests_cant": "needs wrong files", "anchors": ["weio/flex_out_file.py:50-54", "weio/flex_out_file.py:131-145"]}
{"id": "C195", "title": "A FLEX wave kinematics file gives the numbers of its header, and labels with heights", "statement": "Reading a FLEX wave kinematics file (.wko) whose header lists as many displacements and depths as it announces gives the crest height, the largest velocity and acceleration, the water depth, Hs, Tp, the spectrum type, the displacements and the relative depths of the header, the two first header lines, and the table with all rows. The columns are the time, the elevation, and then for every displacement the velocities and the accelerations at all depths, each labelled with its position; the velocity and the acceleration at the same point carry the same position.", "quantifier": "all header lines, numbers and tables", "why_tests_cant": "the one test file is only opened; nothing compares labels", "anchors": ["weio/flex_wavekin_file.py:27-85"]}
{"id": "C196", "title": "A FLEX wave kinematics file may have any number of displacements", "statement": "The header of the table says that a row has the time and then, for each displacement, the elevation, the velocities and the accelerations at all depths. A file with such rows is read, whatever its number of displacements.", "quantifier": "all numbers of displacements and depths", "why_tests_cant": "the one test file has one displacement", "anchors": ["weio/flex_wavekin_file.py:75-85"]}
{"id": "C197", "title": "FLEX wave kinematics files at odds with their header are refused", "statement": "A FLEX wave kinematics file that lists another number of displacements or depths than announced, or whose rows have another number of values than 2 + 2 * displacements * depths, raises BrokenFormatError; a file that cannot be read as a table below eleven header lines raises WrongFormatError.", "quantifier": "all files", "why_tests_cant": "no test reads a wrong file", "anchors": ["weio/flex_wavekin_file.py:34-38", "weio/flex_wavekin_file.py:65-72", "weio/flex_wavekin_file.py:83-84"]}
{"id": "C198", "title": "One class is offered per module of the user folder, and one error per failing module", "statement": "userFileClasses(userpath, ignoreErrors=True) gives, in the order of the files of the folder, the first class (in the order of names) of each module whose name contains \"file\" and not \"error\", and is not just \"File\", together with the path of its file, and one error for each module that cannot be imported or has no such class. With ignoreErrors=False it raises UserFormatImportError for the first of these modules, or gives the same classes. Without the folder there are none.", "quantifier": "all folders, modules and members", "why_tests_cant": "no test has a user folder", "anchors": ["weio/__init__.py:127-177"]}
{"id": "C199", "title": "The classes of the user folder are the ones its modules define", "statement": "The class registered for a module of the user folder is one that this module defines, and an `__init__.py` in the folder is left out.", "quantifier": "all folders, modules and members", "why_tests_cant": "no test has a user folder", "anchors": ["weio/__init__.py:146-172"]}
{"id": "C200", "title": "The first eleven lines of a CACTUS geometry file are read by name, the last value winning", "statement": "When a CACTUS case is read and its geometry file exists, each of its first eleven lines of the form `name: values ! comment` stores under the lower-case name the number, the vector of numbers, or, if some word is no number, the text without spaces at its end; lines with nothing before a comment are skipped; a name given twice has the later value; a line with a text but no colon raises IndexError.", "quantifier": "all lists of lines, all number texts", "why_tests_cant": "tests read one case; the rule is over every combination of comments, blanks, vectors and repeated names within and after the first eleven lines", "anchors": ["weio/cactus_file.py:68-89"]}
{"id": "C201", "title": "The blade columns of CACTUS time data get the numbers of their blades in order", "statement": "When the time data file has `n` columns named `Blade Fx Coeff. (-)` and 8+4n columns in all, the first eight columns keep their names, the columns 8+4j to 8+4j+3 are named `Blade{j+1} Fx Coeff. (-)`, `... Fy ...`, `... Fz ...`, `... Torque ...`, their values are unchanged and the case has `n` blades; with another number of columns ValueError is raised.", "quantifier": "all frames, any number of blades", "why_tests_cant": "the sample case has one number of blades", "anchors": ["weio/cactus_file.py:94-107"]}
{"id": "C202", "title": "The table of a CACTUS case starts with the rotor and blade loads in OpenFAST names and SI units", "statement": "The table puts before the columns of the time data: time, azimuth, wind, power and torque coefficients, the rotor forces, moment and power, the rotor speed, nine columns for each blade, and the wind speed; each value is the coefficient times the reference force, torque or power of the case (rotor speed from rpm, lengths from feet, density from slug per cubic foot), turned by the azimuth of the blade where needed; the time data may have fewer rows than revolutions times steps, and more raise ValueError.", "quantifier": "all cases, any number of blades and rows, over any field with any cosine and sine", "why_tests_cant": "tests check no value of the table; the rule is on every column and row", "anchors": ["weio/cactus_file.py:132-267"]}
{"id": "C203", "title": "Turning the CACTUS forces keeps their size, and power is torque times rotor speed", "statement": "In the table of a CACTUS case, the two in-plane forces of the rotor in turning and in fixed axes have the same sum of squares in every row, and so have those of each blade; the power of a blade is its torque times the rotor speed, but for the first row, which repeats the second.", "quantifier": "all cases with time data of two rows or more, for any cosine and sine with cos\u00b2+sin\u00b2=1", "why_tests_cant": "a sign error in one of the rotations would pass tests that look at one azimuth", "anchors": ["weio/cactus_file.py:200-263"]}
{"id": "C204", "title": "The table of a CACTUS case can be asked for whenever a file was found, any number of times", "statement": "toDataFrame of a CACTUS case gives a table with time data alone, and the same table each time it is called.", "quantifier": "all cases", "why_tests_cant": "tests call it once on a complete case", "anchors": ["weio/cactus_file.py:371-375", "weio/cactus_file.py:180-187", "weio/cactus_file.py:270-274"]}
{"id": "C205", "title": "The columns of a node of a CACTUS case stand together", "statement": "In the table of a CACTUS case, the columns of an element with as many rows as the time data stand together in a fixed order, sorted by blade and element; an element with another number of rows has none.", "quantifier": "all cases, any number of blades, elements and rows", "why_tests_cant": "depends on the insertion counter being moved after every column; the sample has no dynamic stall file", "anchors": ["weio/cactus_file.py:270-363"]}
{"id": "C206", "title": "The graph of a SubDyn file has its joints as nodes and its members as elements", "statement": "`FASTInputFile.toGraph` on a SubDyn file gives one node for each joint, in order, with its ID and coordinates, and one element for each member, in order, with its ID, the IDs of its two joints, the property set of its type (1 beam, 2 cable, 3 rigid; beam if the column is missing) and the properties of the first rows with the given IDs in that set. Each node has the joint type, the conditions of the last row for it in the interface and base tables, and the added mass of the last row for it. Tables that fit together always give a graph; an ID that is not there raises.", "quantifier": "all SubDyn tables, any number of rows, any values", "why_tests_cant": "tests do not build graphs; the rule is on every lookup by ID, on repeated IDs and on missing optional tables and columns", "anchors": ["weio/fast_input_file_graph.py:30-121", "weio/tools/graph.py:50-55", "weio/tools/graph.py:179-204"]}
{"id": "C207", "title": "The added mass of a node is the mass matrix of a rigid body at its centre", "statement": "The 6x6 matrix that the graph of a SubDyn file stores for a concentrated mass with mass m, inertia J about its centre and centre at r from the joint is symmetric, and its quadratic form in velocity v and angular velocity w of the joint is m|v + w x r|^2 + w.J w.", "quantifier": "all masses, inertias, centres and velocities, over any commutative ring", "why_tests_cant": "a sample can hide a wrong sign or index in one of 36 entries; the identity is over all numbers", "anchors": ["weio/fast_input_file_graph.py:89-108"]}
{"id": "C208", "title": "The graph of a HydroDyn file has its joints, members and coefficients", "statement": "`FASTInputFile.toGraph` on a well-formed HydroDyn file gives a graph with a node for each joint with its axial coefficients, an element for each member with its section properties and kind of coefficients, the simple coefficients on the ends of the members that use them, and the coefficients by depth and by member, filled members and marine growth as further properties.", "quantifier": "all HydroDyn tables, any number of rows, any values", "why_tests_cant": "tests do not build graphs; the rule is on every combination of tables that may be there", "anchors": ["weio/fast_input_file_graph.py:130-228", "weio/tools/graph.py:288-300"]}
{"id": "C209", "title": "The graph of a SubDyn summary file has the nodes and elements of its tables", "statement": "`toGraph` on a SubDyn summary file gives a node for each row of the nodes with its ID, place, type and the degrees of freedom listed for it, and an element for each row of the elements with its ID, nodes, type, area, density, modulus of elasticity and shear modulus.", "quantifier": "all tables, any number of rows, any values", "why_tests_cant": "tests do not look at the data of the elements; the rule is on every row and column", "anchors": ["weio/fast_input_file_graph.py:253-272"]}
{"id": "C210", "title": "The tables of an Excel file are the filled parts of its sheets", "statement": "Reading an Excel file gives a table for each sheet that has a value, under the name of the sheet. The table has the columns and the rows of the sheet in which some cell is filled, in their order; the first such row gives the names of the columns; empty cells stay empty.", "quantifier": "all workbooks: any number of sheets, any cells, empty rows and columns anywhere", "why_tests_cant": "tests have a few sheets; the rule is on empty rows and columns at every place", "anchors": ["weio/excel_file.py:24-44"]}
{"id": "C211", "title": "Writing tables to an Excel file and reading it gives the same tables", "statement": "Writing a dictionary of tables to an Excel file and reading the file gives the same names, columns and rows.", "quantifier": "all dictionaries of tables", "why_tests_cant": "tests compare no file after a round trip; the rule is on every table", "anchors": ["weio/excel_file.py:24-76"]}
{"id": "C212", "title": "The table of a TDMS file has a column for each channel", "statement": "Reading a TDMS file whose channels have the same times gives a table with the time and, in the order of the file, a column for each channel of each group, with its name and samples.", "quantifier": "all lists of groups and channels, all names", "why_tests_cant": "there is no TDMS file in the tests; the rule is on all names of groups and channels", "anchors": ["weio/tdms_file.py:22-51"]}
{"id": "C213", "title": "The time column of a TDMS table is right for every channel", "statement": "If a table is returned for a TDMS file, its time column is the time track of every channel and not only of the first; a file with channels sampled at other times is refused.", "quantifier": "all channels with uniform time tracks, any length, start and step, exact arithmetic", "why_tests_cant": "the check compares length, first and last time only; that this is enough is a fact about all tracks", "anchors": ["weio/tdms_file.py:28-49"]}
{"id": "C214", "title": "The tables of a RAAW file have the signals of their sampling time", "statement": "Reading a RAAW file gives two tables, one with the signals sampled at 50 Hz, one with those at 1 Hz: the first column is the time, then the signals in the order of the file with their names and samples; the rows after the last sample of a signal are NaN. Signals of at most 600 s always give the tables.", "quantifier": "all lists of signals, any samples", "why_tests_cant": "there is no RAAW file in the tests; the rule is on every mixture and length of signals", "anchors": ["weio/raawmat_file.py:41-58", "weio/raawmat_file.py:95-111"]}
{"id": "C215", "title": "The index of the tables of a RAAW file is the time of the samples", "statement": "The index of the tables starts at the time stamp at which the signals start.", "quantifier": "all lists of signals, any time stamps", "why_tests_cant": "one file has one time stamp; the rule is on all of them", "anchors": ["weio/raawmat_file.py:53-58"]}
{"id": "C216", "title": "A VTK mesh that is written can be read back", "statement": "Writing a mesh (points in two or three dimensions, blocks of cells of fixed size, point data and cell data of numbers or of rows of numbers, names without spaces) with VTKFile.write, in the binary or the ASCII form, and reading the file gives the points (completed by zeros to three dimensions), the blocks of cells, the names and the numbers of the point data, and the cell data cut into the same blocks.", "quantifier": "for all such meshes, both forms, all numbers that the form keeps", "why_tests_cant": "unboundedly many meshes, cells and numbers", "anchors": ["weio/vtk_file.py:89-140", "weio/vtk_file.py:143-193", "weio/vtk_file.py:712-821", "weio/vtk_file.py:1038-1068", "weio/vtk_file.py:1205-1312"]}
{"id": "C217", "title": "Arrays of a VTK file keep their shape", "statement": "The arrays of the point data and cell data have, after VTKFile.write and reading, the shape with which they were given.", "quantifier": "for all meshes and arrays", "why_tests_cant": "unboundedly many shapes", "anchors": ["weio/vtk_file.py:1277-1312", "weio/vtk_file.py:1038-1068"]}
{"id": "C218", "title": "Grids of structured points agree with the coordinates", "statement": "After reading a VTK file of STRUCTURED_POINTS with SCALARS and VECTORS, binary or ASCII: the axes are those of ORIGIN and SPACING (or ASPECT_RATIO), and point_data_grid[name][i,j,l,m] is component m of the values that the file gives for the point whose coordinates are xp_grid[i], yp_grid[j], zp_grid[l].", "quantifier": "for all sizes of the grid, all arrays, all indices", "why_tests_cant": "unboundedly many grids", "anchors": ["weio/vtk_file.py:89-140", "weio/vtk_file.py:786-854"]}
{"id": "C219", "title": "Structured points with fields of numbers are read", "statement": "A VTK file of STRUCTURED_POINTS whose point data is a FIELD can be read and every array has its grid.", "quantifier": "for all such files", "why_tests_cant": "unboundedly many files", "anchors": ["weio/vtk_file.py:133-140", "weio/vtk_file.py:1038-1068"]}
{"id": "C220", "title": "The table of a SubDyn summary file says the modes", "statement": "toDataFrame() of a SubDyn summary file has distinct labels and one row for each node, the same node for the positions, the Guyan modes and the Craig-Bampton modes. The columns z, x, y are the positions. For each mode and direction in which some node moves there are the columns <Guyan|CB>Disp<n><x|y|z>_[m] with the displacements (0 where there is none) and <Guyan|CB>Mode<n><x|y|z>_[m] with the displaced positions, and there are no columns for the others.", "quantifier": "for all summary files, numbers of nodes and modes", "why_tests_cant": "unboundedly many files, nodes and modes", "anchors": ["weio/fast_summary_file.py:153-176", "weio/fast_summary_file.py:225-253"]}
{"id": "C221", "title": "bodyC2 gives the lines of a c2_def section", "statement": "HAWC2HTCFile.bodyC2(body) of a body whose c2_def has lines of five numbers gives these lines, in the order of their first number.", "quantifier": "for all such sections", "why_tests_cant": "unboundedly many sections", "anchors": ["weio/hawc2_htc_file.py:62-71"]}
{"id": "C222", "title": "setBodyC2 sets the lines of a c2_def section", "statement": "HAWC2HTCFile.setBodyC2(body, val) with at most as many rows as there are lines (rows of five numbers in the order of their first, whole, number): the section then has these rows, declares their number, keeps the keys of its first lines and all its other entries, and bodyC2 gives val.", "quantifier": "for all sections and all such rows", "why_tests_cant": "unboundedly many sections and rows", "anchors": ["weio/hawc2_htc_file.py:73-92", "weio/wetb/hawc2/htc_contents.py:71-93"]}
{"id": "C223", "title": "setBodyC2 that raises leaves the body as it was", "statement": "When HAWC2HTCFile.setBodyC2 raises NotImplementedError since there are more rows than lines, the body is as before.", "quantifier": "for all sections and rows", "why_tests_cant": "the state after an exception", "anchors": ["weio/hawc2_htc_file.py:79-88"]}
{"id": "C224", "title": "Section lines that do not have five numbers are refused", "statement": "HAWC2HTCFile.bodyC2 raises an exception for a c2_def section whose lines do not have five numbers.", "quantifier": "for all sections", "why_tests_cant": "unboundedly many sections", "anchors": ["weio/hawc2_htc_file.py:68-69"]}
{"id": "C225", "title": "bodyByName finds the main bodies by name", "statement": "HAWC2HTCFile.bodyByName(name) gives the last main body of that name, and raises an exception when there is none.", "quantifier": "for all files whose main bodies have names", "why_tests_cant": "unboundedly many files", "anchors": ["weio/hawc2_htc_file.py:44-60"]}
{"id": "C226", "title": "The tables of a HAWC2 file have the sections of the bodies", "statement": "toDataFrame of a HAWC2HTCFile has for each main body with sections the table <name>_c2 with a row for each line in the order of the first numbers and the columns z, x, y and twist (the fourth, second, third and fifth numbers), and no such table for other bodies.", "quantifier": "for all files whose main bodies have different names", "why_tests_cant": "unboundedly many files", "anchors": ["weio/hawc2_htc_file.py:95-111"]}
{"id": "C227", "title": "test_write_read passes exactly for what can be written and read", "statement": "F.test_write_read() writes the object to the temporary file name_TMP.ext beside its file and reads it again; it returns this name if and only if the writer and the reader raise nothing and the file read is not empty, the object then has the data of the file written, bDelete removes that file, and no other file is touched whatever happens", "quantifier": "every class, object, directory and outcome of writer and reader", "why_tests_cant": "tests call it for classes that pass", "anchors": ["weio/file.py:111-129"]}
{"id": "C228", "title": "test_ascii compares what is written with the original", "statement": "F.test_ascii() passes if the file written has the same words in the same lines as the original and raises if not; a passed test removes its temporary file (keeps it with bDelete=False), a failed one leaves it for inspection; the original and every other file are untouched in all cases", "quantifier": "every class, object, directory; differing files without bars", "why_tests_cant": "tests use the method, not the method itself", "anchors": ["weio/file.py:131-152"]}
{"id": "C229", "title": "test_ascii with bCompareWritesOnly compares two generations", "statement": "F.test_ascii(bCompareWritesOnly=True) passes if the file written, and the file written after reading that one, have the same words in the same lines, and raises if not; a passed test removes both temporary files, a failed one leaves both", "quantifier": "every class, object, directory; differing files without bars", "why_tests_cant": "a handful of example files", "anchors": ["weio/file.py:131-152"]}
{"id": "C230", "title": "The tests of writing leave the object at its file", "statement": "after F.test_write_read() or F.test_ascii() the object still refers to its own file (F.filename), so that a further write, read or test concerns that file", "quantifier": "every class and object", "why_tests_cant": "tests build a new object for each file", "anchors": ["weio/file.py:117-130", "weio/file.py:28-29", "weio/file.py:40-41"]}
{"id": "C231", "title": "test_write_read says what went wrong", "statement": "an exception of the writer or reader is reported by test_write_read with the step it happened in and the message of the exception", "quantifier": "every exception", "why_tests_cant": "needs failing writers and readers", "anchors": ["weio/file.py:120-126"]}
{"id": "C232", "title": "compare says nothing exactly for equal HAWC2 files", "statement": "htc.compare(other) is the empty string if both files are the same; for files without output sections it is empty if and only if both have the same sections and lines, with the same values, under the same names, whatever their order", "quantifier": "every tree of sections and lines", "why_tests_cant": "no test of compare", "anchors": ["weio/wetb/hawc2/htc_contents.py:169-190", "weio/wetb/hawc2/htc_contents.py:345-351", "weio/wetb/hawc2/htc_file.py:501-504"]}
{"id": "C233", "title": "compare reports different sensors", "statement": "when the sensors of two output sections differ, in number, type, name or values, compare reports it", "quantifier": "every pair of output sections", "why_tests_cant": "no test of compare", "anchors": ["weio/wetb/hawc2/htc_contents.py:397-406", "weio/wetb/hawc2/htc_contents.py:478-484"]}
{"id": "C234", "title": "The marks of compare tell the files apart", "statement": "in the report of a.compare(b) all lines of a carry one mark and all lines of b the other", "quantifier": "every pair of files", "why_tests_cant": "no test of compare", "anchors": ["weio/wetb/hawc2/htc_contents.py:169-190", "weio/wetb/hawc2/htc_contents.py:345-351"]}
{"id": "C235", "title": "A deterministic wind file gives the table of its numbers", "statement": "FASTWndFile(f).toDataFrame() has one row per line of data, in order, with the values of the line up to an exclamation mark, under the eight names with units; short lines are filled with missing values, a line longer than the first is refused with WrongFormatError, and if the first line has not eight values the columns are numbered", "quantifier": "every text without tabs and control characters in its first line and without quotes", "why_tests_cant": "one example file", "anchors": ["weio/fast_wind_file.py:18-50", "weio/csv_file.py:61-247"]}
{"id": "C236", "title": "Wind files with tabs are text files", "statement": "a deterministic wind file whose values are separated by tabs is read like one with blanks", "quantifier": "every such file", "why_tests_cant": "the example file starts with a comment", "anchors": ["weio/fast_wind_file.py:40-43", "weio/file.py:157-170"]}
{"id": "C237", "title": "A wind file survives being read and written", "statement": "a deterministic wind file that is read, written and read again gives the same table", "quantifier": "every wind file with equally long lines", "why_tests_cant": "the example file starts with a comment", "anchors": ["weio/fast_wind_file.py:40-47", "weio/csv_file.py:249-269"]}
{"id": "C238", "title": "A HAWC2 file that continues in other files is read as one text", "statement": "Reading a HAWC2 file replaces each line `continue_in_file name;` (any case, after blanks, whatever follows the semicolon) by the lines of the file of that name below the model path, up to but without the first line of it that starts with `exit`; the lines before and after are kept in order, the files named are themselves read in this way, and the file that is named is listed among the input files. A file without such lines gives its own lines. No `continue_in_file` line is left in the result. If the named file is not there the reading is an error, and so it is for a file that continues in itself.", "quantifier": "for all files, contents, names, model paths and depths of nesting", "why_tests_cant": "Tests read one or two example models; they cannot cover arbitrary nesting, the position of the line in the file or files that include themselves.", "anchors": ["weio/wetb/hawc2/htc_file.py:186-218"]}
{"id": "C239", "title": "A HAWC2 file that continues in another one near it can be read without giving a model path", "statement": "If the file named by `continue_in_file` is in the directory of the main file or in one of its three parents, opening the main file without a model path (as `weio.read` does) reads it from the nearest of these directories.", "quantifier": "for all main files, names and contents of the directories", "why_tests_cant": "The examples have names in lower case; no test opens a file on a case-sensitive file system whose parts have capitals in their names.", "anchors": ["weio/wetb/hawc2/htc_file.py:136-142", "weio/wetb/hawc2/htc_file.py:203-211", "weio/hawc2_htc_file.py:25"]}
{"id": "C240", "title": "Tables of a FLEX documentation file", "statement": "Exporting a FLEX documentation file that has been read to data frames gives tables under distinct names. Each is named as the table section it comes from (without the #) and has the labels and rows that the object holds for that section; every table section of the file gives one, with the labels of its header and the numbers of its lines (the global mode shape after its adjustment), and entries and matrices give none.", "quantifier": "for all texts that can be read, and all files made of entries, tables, matrices and other lines at different places", "why_tests_cant": "The test reads one example; two keys joined by an underscore could collide for some file, which a few examples cannot rule out.", "anchors": ["weio/flex_doc_file.py:196-208", "weio/flex_doc_file.py:119-127"]}
{"id": "C241", "title": "Assigning to an attribute of a HAWC2 section sets it", "statement": "After `section.k = v`, for a name k that is no attribute or method of the object, `section.k` is a line with the values v; a line that was there keeps its name and comment; all other lines and sections and the order of the contents are unchanged, a new line is added at the end.", "quantifier": "for all contents of the section, names and values", "why_tests_cant": "Tests assign to one or two plain names; names that can be read with a suffix (`sec__1`) and names of sections are never assigned.", "anchors": ["weio/wetb/hawc2/htc_contents.py:58-88"]}
{"id": "C242", "title": "Item assignment on a HAWC2 section sets the line", "statement": "After `section[k] = v` the line `section[k]` has the values v and everything else in the section is unchanged.", "quantifier": "for all contents of the section, names and values", "why_tests_cant": "Tests only add new lines by item assignment; none assigns to a line that is there.", "anchors": ["weio/wetb/hawc2/htc_contents.py:212-224", "weio/wetb/hawc2/htc_contents.py:129-137"]}
{"id": "C243", "title": "The copy of HAWC2 contents is equal to the original", "statement": "`x.copy()` is a line or section with the same kind, name, comments, values, contents and sensors as `x`.", "quantifier": "for all lines and sections, of any depth", "why_tests_cant": "Tests copy one section without sensors; copies of output sections and arbitrary nesting are not compared with the original.", "anchors": ["weio/wetb/hawc2/htc_contents.py:288-292", "weio/wetb/hawc2/htc_contents.py:353-354", "weio/wetb/hawc2/htc_contents.py:357-362"]}
{"id": "C244", "title": "get_section finds the subsection with a given value", "statement": "`section.get_section(value, field)` returns the subsection whose line `field` begins with the value if there is exactly one such subsection, wherever it is, and raises ValueError if there is none or more than one.", "quantifier": "for all contents of the section, fields and values", "why_tests_cant": "Tests look up a name or two that exist; uniqueness and absence for arbitrary contents are not examined.", "anchors": ["weio/wetb/hawc2/htc_contents.py:261-271", "weio/wetb/hawc2/htc_contents.py:95-99"]}
{"id": "C245", "title": "get_element finds the contents with a given value", "statement": "`section.get_element(key, value)` returns the subsection whose line `key` has the value, or for a whole number the line with the value at that position, if there is exactly one, and raises ValueError otherwise.", "quantifier": "for all contents of the section, keys and values", "why_tests_cant": "No test calls get_element with the name of a line.", "anchors": ["weio/wetb/hawc2/htc_contents.py:273-286"]}
{"id": "C246", "title": "set_time sets the times of a HAWC2 file and nothing else", "statement": "`set_time(start, stop, step)` on a file with simulation, newmark, output and wind sections sets the stop time, the time step, the start and stop of the output and the start of the wind scaling, whether or not these lines were there, and changes no other value. Without stop and step, the stop time of the file is used for the output and the simulation is unchanged.", "quantifier": "for all files with these sections and all times", "why_tests_cant": "Tests check the lines that are set in one file, not that every other value is kept.", "anchors": ["weio/wetb/hawc2/htc_file.py:279-290"]}
{"id": "C247", "title": "Deleting a line of a HAWC2 section", "statement": "`del section.k` removes the line or section of that name and keeps all others in their order; it raises KeyError if there is none.", "quantifier": "for all contents of the section and names", "why_tests_cant": "Tests delete a line that exists; the documented KeyError for one that does not is never checked.", "anchors": ["weio/wetb/hawc2/htc_contents.py:90-93", "weio/wetb/hawc2/htc_file.py:90-94"]}
{"id": "C248", "title": "Contents of a HAWC2 file by a path", "statement": "`htc['a.b.c']` and `htc['a/b/c']` give the contents c of section b of section a; if there is no such contents, `[]` raises KeyError and `htc.get(path, default)` returns the default.", "quantifier": "for all files and paths of any length, with any mixture of dots and slashes", "why_tests_cant": "Tests use a few paths that exist; a path that goes on behind a line is never asked for.", "anchors": ["weio/wetb/hawc2/htc_contents.py:45-56", "weio/wetb/hawc2/htc_contents.py:106-110", "weio/wetb/hawc2/htc_contents.py:322-326"]}
{"id": "C249", "title": "Sections of the same name are told apart by their fields", "statement": "`htc.new_htc_structure.main_body(name='shaft')` gives the section of this name whose lines begin with the given values if there is exactly one, and raises AssertionError otherwise, whatever the fields are called.", "quantifier": "for all sections, sets of fields and values", "why_tests_cant": "Tests use the field name only; the outcome for a field whose name begins with v is not tried.", "anchors": ["weio/wetb/hawc2/htc_contents.py:112-124"]}
{"id": "C250", "title": "Lines of the same name are told apart by their values", "statement": "`c2_def.sec(v0=3)` gives the line of this name with the given values at the given positions if there is exactly one, and raises AssertionError if there is none or more than one.", "quantifier": "for all sections, positions and values", "why_tests_cant": "One call is tested; absence and ambiguity for arbitrary lines are not.", "anchors": ["weio/wetb/hawc2/htc_contents.py:112-124", "weio/wetb/hawc2/htc_contents.py:322-326"]}
{"id": "C251", "title": "The input files of a HAWC2 file", "statement": "`input_files()` lists the file itself and every file that the model reads: structural files of all main bodies, aerodynamic files, DLLs with their 64 bit versions, and the files named in the wind, wakes, hydro, soil and force sections.", "quantifier": "for all files, with any number of main bodies and DLLs", "why_tests_cant": "Tests compare the list for a few files; none of them has a wakes section.", "anchors": ["weio/wetb/hawc2/htc_file.py:315-380"]}
{"id": "C252", "title": "The result files of a HAWC2 file", "statement": "`res_file_lst()` gives the files of all output sections in their order: one .hdf5 file for gtsdf, an .int file and the sensor file for flex_int, .sel and .dat otherwise; outputs at one time and other sections give none.", "quantifier": "for all files with any number of output sections", "why_tests_cant": "Tests use one output section in one or two formats.", "anchors": ["weio/wetb/hawc2/htc_file.py:424-437"]}
{"id": "C253", "title": "The output files of a HAWC2 file", "statement": "`output_files()` lists, in lower case, every file named in the simulation, structure and turbulence export sections, the modes of an eigenanalysis, the result files and the files of outputs at one time.", "quantifier": "for all files for which the list is given", "why_tests_cant": "Tests compare the list for one file; every line in every combination is not tried.", "anchors": ["weio/wetb/hawc2/htc_file.py:382-412"]}
{"id": "C254", "title": "The turbulence files of a HAWC2 file", "statement": "`turbulence_files()` gives the names of the u, v and w components in the mann section for format 1 and the flex section for format 2, leaving out those that are not given, and nothing without a wind section or for format 0.", "quantifier": "for all files, with or without lines for the components", "why_tests_cant": "Tests have complete mann sections; missing components and sections are not combined.", "anchors": ["weio/wetb/hawc2/htc_file.py:414-422"]}
{"id": "C255", "title": "The input files of a FAST input deck", "statement": "`deck.inputFiles` lists the paths of the input files that the deck uses, each relative to the directory of the file that names it, and none that is marked as unused.", "quantifier": "for all decks, in any directories", "why_tests_cant": "Tests do not look at inputFiles; nested directories and unused files are not combined.", "anchors": ["weio/fast_input_deck.py:152-157", "weio/fast_input_deck.py:160-217"]}
{"id": "C256", "title": "Tables of a NetCDF file", "statement": "`toDataFrame()` of a NetCDF file (up to two dimensions, as its format says) has a table with all values, in their places, for every variable and coordinate of at most two dimensions.", "quantifier": "for all data sets, shapes and values", "why_tests_cant": "No NetCDF file with scalars or coordinates is tested; the position of every value for every shape is not.", "anchors": ["weio/netcdf_file.py:24-26", "weio/netcdf_file.py:38-49"]}
{"id": "C257", "title": "set_name names the files of a simulation", "statement": "`htc.set_name(name, subfolder)` sets the names of the log file, the animation, the visualization and the results wherever the file has these lines, keeps the other values of the visualization line, and changes no other value.", "quantifier": "for all files with a simulation section and an output section", "why_tests_cant": "Tests check the names in one file with all lines; a simulation without a log file and the values that must be kept are not examined.", "anchors": ["weio/wetb/hawc2/htc_file.py:246-277", "weio/wetb/hawc2/htc_contents.py:71-88", "weio/wetb/hawc2/htc_contents.py:326-330"]}
{"id": "C258", "title": "add_section adds the section it is given", "statement": "`htc.add_section(section, members)` adds the given section, or a new one, behind the others, with its contents and a line for each member; its key is its name if that is free, and otherwise a key that nothing else has; nothing else changes.", "quantifier": "for all files, names, sections and members", "why_tests_cant": "Tests add one new empty section; given sections with contents, and outputs in particular, are not added.", "anchors": ["weio/wetb/hawc2/htc_contents.py:128-155", "weio/wetb/hawc2/htc_contents.py:193-224", "weio/wetb/hawc2/htc_contents.py:357-362"]}
{"id": "C259", "title": "add_section of an existing section, and of outputs", "statement": "Without `allow_duplicate`, `add_section` of a name that is there returns the existing section and changes nothing, whatever the members; a new output gets lines for the members; an output at one time without a keyword or without a number as time raises a ValueError.", "quantifier": "for all files, names and members", "why_tests_cant": "Tests do not call it for sections that exist, and not with wrong output names.", "anchors": ["weio/wetb/hawc2/htc_contents.py:139-155", "weio/wetb/hawc2/htc_contents.py:413-418"]}
{"id": "C260", "title": "Adding a section and deleting it leaves the file as it was", "statement": "A section that `add_section` has added is found under its key, and after `section.delete()` the file has exactly the contents from before.", "quantifier": "for all files, names, sections and members, with or without duplicates", "why_tests_cant": "Tests delete one section of a sample; that the right one of several equal names goes, and nothing else, holds for all files only by proof.", "anchors": ["weio/wetb/hawc2/htc_contents.py:128-160"]}
{"id": "C261", "title": "add_hydro sets the water properties", "statement": "`htc.add_hydro(mudlevel, mwl, gravity, rho)` sets the four water properties, in the sections of the file or in new ones, replaces the values that are there, and changes no other value.", "quantifier": "for all files whose `hydro` and `water_properties`, if there, are sections", "why_tests_cant": "Tests do not call it; files with none, one or both of the sections, with some of the lines, are not compared.", "anchors": ["weio/wetb/hawc2/htc_extensions.py:124-129", "weio/wetb/hawc2/htc_contents.py:71-88", "weio/wetb/hawc2/htc_contents.py:139-155"]}
{"id": "C262", "title": "add_mann_turbulence sets the turbulence and nothing else", "statement": "`htc.add_mann_turbulence(\u2026)` with file names sets the turbulence format, the parameters, the three files and the three boxes, in the sections of the file or in new ones; the two scaling lines are set if asked for and deleted otherwise; no other value changes.", "quantifier": "for all files whose `wind` and `mann`, if there, are sections, and all arguments with file names", "why_tests_cant": "Tests set one turbulence on one file; a file that has a scaling line already, or half of the section, is not examined.", "anchors": ["weio/wetb/hawc2/htc_extensions.py:47-87", "weio/wetb/hawc2/htc_contents.py:71-93", "weio/wetb/hawc2/htc_contents.py:139-155"]}
