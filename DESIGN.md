# Formal model of py-armodel in Lean 4

Sources: `/repo/src/armodel` (read as text, never run). Model, specifications, proofs: `/verif/lean/Verif`.
Property list: `properties.jsonl`. Outcome per property: `MANIFEST.json`. Wrong programs tried: `seeded/LOG.jsonl`.

## 1. Trusted base

* Lean 4.33.0 kernel. No axioms of our own, no `sorry`, no `native_decide`, no `bv_decide`.
* Axioms of every theorem of the manifest: section 7 (generated by `tools/axioms.py` from `#print axioms`); at most `propext`,
  `Classical.choice`, `Quot.sound`.
* The translators `tools/*.py`. They read `/repo` with Python's `ast` module and print Lean tables. They prove nothing; what they
  print is part of the model and has to be compared with `/repo` by reading (every generated definition cites file and lines).
  A statement of a parser or writer method that the translator does not know makes it stop (`codec_match.py`, `load`); it does not
  skip statements. Translated by hand are `readDelegationSwConnectorInnerPortIRef`, the condition of `readDelegationSwConnector`
  (line 4907) and a few expressions in `codec_norm_r.py` and `codec_norm_w.py`, each marked there with its line.
* The claim that the model is the code. It is established by reading; every definition cites the lines it models.
* Two languages of the model stand for Python's run time: `Except PyErr` for exceptions, `Py` (Model/Py.lean) for what Python's
  characters and floats do outside ASCII and the integers. `Py` is a parameter with laws; theorems hold for every `Py`.

## 2. Layout

| module | models | properties |
|---|---|---|
| `Model/Collection` | `CollectableElement`, `Identifiable`: add, get, remove, enumerate | C01–C05 |
| `Model/Create`, `Gen/CreateTable` | all 362 `createX` methods by pattern | C06, C07 |
| `Model/Classes`, `Gen/Hierarchy` | class hierarchy of `models/**` | C02, C06, C35, C47 |
| `Model/Tree` | documents, packages, parents, `full_name`, `find`, DEST lookup, `clear` | C08–C13, C47 |
| `Model/Registry` | UUID index, type maps, behaviour maps, systems, root composition, releases | C13–C18, C48 |
| `Model/Regex`, `Model/Py`, `Model/Prim` | `PrimitiveTypes.py` character by character | C19–C26 |
| `Model/Xml`, `Model/Scalar` | ElementTree elements; accessors of the abstract parser and writer | C25–C29 |
| `Model/Markup` | `saveToFile`, `patch_xml`, `tostring`, `toprettyxml`, XML parsing | C30–C32, C50, C59 |
| `Model/Codec`, `Gen/Read*`, `Gen/Write*` | all reader and writer methods reachable from `load` and `save` | C33–C38, C50 |
| `Model/Document` | `load`, `save` | C33–C38, C50 |
| `Model/Load`, `Gen/OverTable` | `load` into a document that has contents, `clear` | C39, C40, C51, C63, C82, C83 |
| `Model/Accessors`, `Model/Access`, `Gen/AccessTable` | getters, setters, adders of all classes | C45, C46 |
| `Model/AdminData` | `AdminDataTransformer` | C41 |
| `Model/FileList` | `FileListParser`, `InputFileParser` | C42 |
| `Model/Sort`, `Model/Connectors` | connector lists, connector tables, update, report | C43, C44, C49 |
| `Model/ConnectorTool` | `connector-update` and `connector2xlsx` on files | C64, C65 |
| `Spec/Numbers`, `Lemmas/Numbers`, `Lemmas/SameFind` | documents with assigned numbers; paths in equal documents (no new model: `Model/Prim`, `Model/Document`, `Model/Load`) | C66, C67 |
| `Model/Duration` | `periodMs`, `minimumStartIntervalMs`, with the arithmetic of doubles | C68 |
| `Model/DumpTool` | `arxml-dump` on files | C69 |
| `Model/Disk` | files as bytes in UTF-8; the system calls of `save` | C70 |
| `Model/Construct`, `Gen/NewTable` | constructors with their tests and argument numbers; all constructor calls of the library | C71 |
| `Model/Rename` | collections whose members are renamed | C72 |
| `Model/Singleton` | `AUTOSAR.getInstance` and `AUTOSAR()`, executed by threads | C73 |
| `Model/Plain` | the create and get methods that search, sort or filter a plain list | C74 |
| `Model/Heap` | setters, adders and constructors on a heap of objects, with lists that have identities | C75 |
| `Model/Tools` | log files, exception handlers and exit status of `cli/*.py`; the files `arxml_format_cli.py` changes | C77 |
| `Model/Namespace` | the namespace mode of `expat` behind `ET.parse`, `getPureTagName`, the keys the tree model has for resolved names | C80, C81 |
| `Model/Listing`, `Gen/ListTable` | all 170 listing methods, `swc-list`, `system-signal-list`, packages in `arxml-dump` | C52–C54 |
| `Model/Format` | `format_xml_cli.py` | C55 |
| `Model/FileListTool` | `file_list_cli.py`, `os.path.relpath` | C56 |
| `Model/ArxmlFormat` | `arxml_format_cli.py` (which file is written) | C57 |
| `Model/ListTool` | `swc_list_cli.py`, `system_signal_cli.py`, `memory_section_cli.py`, the analyzers on loaded documents | C58 |
| `Model/Calls` | the calls of `addARObject` and the other registries during `load`, `uuid_checker_cli.py` | C60, C61 |
| `Model/Ports` | the checks of com specs in ports (for files: `aim` in `Model/Codec`) | C62 |
| `Model/Enum`, `Gen/EnumTable` | `AREnum` and the classes derived from it | C84 |
| `Model/Program` | create, set, add, unset and removeARElement on documents | C85 |
| `Gen/Unsaved` (found by `tools/gen_unsaved.py`, checked by the kernel) | attributes with set or add methods that are not read | C86 |
| `Gen/Names` (found by `tools/gen_names.py`, checked by the kernel) | the elements of the same name as the attributes | C87 |
| `Model/Key`, `Model/Chars`, `Model/Bst` | names as numbers, search trees (representation only) | |
| `Spec/*` | specifications, apart from the model | |
| `Props/*` | the property theorems, each followed by a concrete case | |
| `Lemmas/*`, `Gen/Pairs*`, `Gen/Witness` | proofs; complete tables checked by kernel evaluation and lifted by a lemma | |

## 3. How the properties are proved

* C01–C05: state machine over add/create/remove, simulation with a plain list, induction over histories.
* C06, C07: semantics of the patterns of create methods; theorems per pattern; every method is in the table.
* C08–C12: object store with a well-formedness invariant kept by every operation; `find` related to an inductive path relation.
* C13–C18, C48: state machines; result as a function of the history.
* C19–C26: regular expressions with the order of backtracking of `re`; conversion compared with sums of powers.
* C27–C29: equations for each accessor, commutation with changes of siblings.
* C30–C32: characters; the file written for a tree is computed and parsed back by structural induction. For the
  converse in C31 (`Lemmas/MarkupQuote`): what the parser has read is never taken back (an invariant of every step), so the
  attribute value that ends at the first quotation mark is in whatever tree is read.
* C33–C37: a reader method and the writer method for its result are a *pair*; a decidable relation between the two lists of
  slots is shown to imply the round trip (`Lemmas/Main`, by induction over the tree); the relation is evaluated by the kernel
  on all 709 pairs. What the relation cannot accept is a defect: `Spec/Defects.lean` lists 50 conditions, and `C33_broken`
  shows for each entry a document that loses something.
* C36: deletion of an element anywhere in the tree is followed through all reader methods that can reach it.
* C38: sorting and insertion order.
* C39, C40, C51: reading into an existing object; an invariant `Merged` for the result, induction over the list of files. For C51 also a relation
  `Doubled` between the document before and after, by induction over the nesting.
* C41–C44, C49: direct models, induction over rows/lines/histories.
* C45, C46: meaning of method shapes on attribute dictionaries, then all methods of all classes.
* C50: provenance of every character string through reader and writer methods.
* C52: membership through filter and sort; the tables of listing and create methods are compared pair by pair by the kernel.
* C53, C54: the object store of C08–C12; every package has one parent, hence one way up; induction from the inner packages.
* C55: `splitlines` characterised; the lines of the pretty-printed tree are those of a tree with changed white space, which is then
  parsed back as in C30; induction over the tree.
* C56: where a path leads is an inductive relation; `relpath` undoes the common prefix; lines written are lines read (C42).
* C57: which reads and writes touch `ADMIN-DATA` is a check of the two tables, lifted to documents by induction over packages; the rest of
  an element is read and written the same with and without it.
* C58: a check of the reader table ties tags to classes; induction over packages ties paths in a file to paths in the document; `loads_holds` (C82) joins files, none of which has to load by itself.
* C59: the parser runs on both texts; a relation between the two states (some text is already in the element) is kept by every step.
* C60: the paths of a method of the reader never lead to an element twice, nor into an element that is handed to another method (check of
  the complete reader table); so by induction over the file an element is registered at most as often as it has a UUID. Conversely,
  induction over packages: two places give two registrations. C14 does the rest.
* C61: a check of the complete reader table says which methods can reach a call of a registry other than `addARObject`; so induction over the
  packages gives the calls of a file in the order of its elements. C15, C17 and C48 say what the registries make of them. The same walk for
  UUIDs in the document (`C60_document`): by induction, an object is counted at most as often as it was registered.
* C62: every object in a loaded document was made by a reader method (`within_read`); a check of the complete reader table says which methods can
  make the com specs of P and R ports and that these compare `DEST`. For calls: induction over the calls.
* C63: the round trip of C33 is proved for every document whose objects have the attributes of their classes (`Spec/Built`: kinds of values, single
  attributes, mandatory attributes, different names), not only for loaded ones. That loading a file yields such a document, and that loading a further
  file into such a document does, is an induction over the nesting and over the files; two facts about the complete reader table are needed (the tags of
  one attribute are apart, the conditions of `CompuScale` are not affected by merging).
* C64: `locatePkg` applies a change to the elements of all packages. If the change keeps names and classes, and turns objects with the attributes of
  their class (`Shaped`, C63) into such objects, so does `locatePkg`, by induction over the nesting; which element is where is an induction over the
  path. That updating a composition is such a change needs one fact about the complete reader table (the attributes of compositions) and an invariant of
  the loop over the rows: the new names are different from each other and from all names in the index. The file then is a case of C63.
* C65: the compositions are collected as in C58; the report stops at the first connector.
* C66: `back` replaces every assigned number by the number its text denotes. Writing does not tell the two apart (induction over the writer's methods and
  the nesting); the result has the attributes of C63, because the text of an integer and of a float is a decimal number (C20, C23); so C63 applies. The
  violations are concrete documents, for which `load` is followed down to the value that cannot be read.
* C67: the first element with a name is the same before and after sorting, because sorting is stable; then induction over the path, with the equality of C63.
* C68: `Ieee py` says that reading a text and multiplying give the nearest double (`roundD` shows that there is such an arithmetic: `Py.ieee`). Both
  roundings are followed exactly: the relative error of the first, times 1000, is compared with half a unit of the last place of the product, for every
  power of two. What remains is a condition on k (`Short`). Where the product is exactly between two doubles, `TiesEven` (the even one is taken) decides.
* C69: the printed lines with the exception that ended them are a monoid; induction over the depth of packages.
* C70: the XML parser is a state machine; once the root element is closed it never changes. So if the beginning of a text can be parsed, it is parsed as
  the whole text is. That UTF-8 can be cut only between characters is from Lean's library. The crash points are the lengths of the list of system calls.
* C71: the kernel runs the constructors of all 1064 classes with the right number of arguments; a lemma covers all other numbers. For documents: induction
  over the path to the object, every reader method makes an object of a class that can be constructed.
* C72: invariants over all histories: the index lists the members of each name (if no member was renamed), or what was added under each name (always).
* C73: small steps, one per access to the class attribute; an invariant over all schedules for the document once it is complete, witnesses for the races.
* C74: the search over current names, in any state and along all histories; induction over the lists for sorting and filtering.
* C75: a refinement: as long as every list has one holder (an invariant of all programs that share no lists), the heap shows each object as `Model/Access`
  computes it from the calls on this object.
* C76: one exchange at a time: the elements a path finds are the same up to one exchange inside (`select_one`), or, for tests, as a set (`select_both`), if
  wildcards only follow the tags in `Spec/Order.mixedLists`; that they do is a check of all 710 methods of the reader (`readers_tidy`). Induction on the depth.
* C77: a table of the ten tools (log file, what is done about an exception); for any work between, and for `arxml-format` with its work composed of `load`
  and the system calls of `save` (C70).
* C78: the same induction as C76, for a relation that also changes texts and attributes (`Spec/Layout`).  The tags whose text is read are generated from the
  reader table (`tools/gen_text.py`, `Gen/TextTags`); the kernel checks the table against the list.
* C59, references: `Spec/Spelled` says how a text may be spelled with named, decimal and hexadecimal references; the parser reads exactly that.
* C79: `Spec/Grammar` has the productions of XML 1.0 (without document types) and the tree each stands for.  The parser accepts what they produce (induction
  on the derivation), and a text it accepts is cut into productions from the front (induction on its length).
* C80, C81: `Model/Namespace` resolves the prefixes of the parsed tree the way `expat` does.  `Spec/Namespace` says what a prefix stands for inside of nested
  elements; the two agree by induction on the tree, for the trees of `C79` (names are names, no attribute twice).  For files with the usual declarations the
  result is the tree of `Model/Markup`; that saved files are of this kind follows from the table of the writer's names.  The pattern of `getPureTagName` is
  modelled as a scanner, and characterised for tags whose namespace has no brace.
* C82: `Spec/Define` lists the definitions of a path in a file from the tables alone; `C82_packages` and `C82_elements` say what they are in terms of the file.
  That one list of members has, under a name, the old object with the definitions of that name read into it is an induction over the elements read; that
  only one attribute of an object can have the name follows from the names being different afterwards; paths are followed by induction on the depth.
* C83: `Spec/Divide` says what a division is. Reading an element whose lists are those of two others, one after the other, is reading the two, attribute by
  attribute (a check of the tables says that packages have only lists and single children); a package that is read again can be moved past packages of other
  names (`put_comm`); the rest is induction over the division.
* C84: `Gen/EnumTable` has the constants of each class and the values it hands to `AREnum`; the kernel compares the two for the 100 classes, and induction over
  the history gives the rest.
* C85: `Model/Program` gives calls of create, set, add and remove methods a meaning on documents; `Spec/Program` says when a call passes what the attribute is for
  (`Fitting`), what a program can do (`History`) and what it has to have done before saving (`Complete`).  Each call keeps a document well typed
  (induction over the place of the call, using facts about all 636 reader methods that the kernel checks), so C63 applies at the end.  That the calls exist
  is checked against the tables of accessors (C45) and create methods (C02).
* C86: the kernel goes through the methods of the classes (`Gen/AccessTable`) and the methods of the reader: each attribute that is set is one that is read, or is in
  `Gen/Unsaved`.  That values in attributes the writer does not look at change nothing of what is saved is proved by induction over the levels of the document:
  two documents that differ only in such attributes look the same to each method of the writer.
* C87: what a path selects lies below the element on a way with the tags of the path (by induction over the path); the kernel goes through all methods of the reader and
  compares the names of the attributes with the tags (`Gen/Names` lists the pairs, so that each is compared once); induction over the levels of the file.
* C88: what a path selects is a sublist of the elements in the order of the file (by induction over the path), and each selected element gives at most one value.
* C89: a path whose last repeated step is known is taken apart (by induction over the path); the kernel compares, for all methods of the reader, the paths with what the
  constructors of the class assign (`Model/Accessors`), which are first written as a list of assignments (proved equal).
* C90: stable insertion commutes for different names, so a permutation within a block of distinct names does not change the sorted list; the kernel checks that
  no writer method that may be called for the class looks at these objects in the order they have; then induction over the depth.  The converse follows from C85:
  one tree is loaded as one document.
* C91: documents of histories are typed (C85).  For every method of the reader and every method of the writer that is called for its objects the kernel checks that
  each accessor of the writer takes the values the accessor of the reader makes, that every class has a branch, and that a statement that raises is excluded by
  `stops`; induction over the depth then shows that an exception comes from an object in `stops`, and that the recursion ends.
* C92: for each kind of slot, reading it succeeds exactly under the condition of `Spec/Readable` (number texts by C21, booleans by C22, revision labels by C26); with
  `Visits`, the relation of C36 that says which elements are read with which methods, induction over the depth lifts this to files.  The exceptions are found by the same
  induction; that the statements that always raise are of the two kinds named is checked on the table of methods.
  Loading into a document (`loadInto`) is treated in the same way, so there files may repeat names.
* C93: the same for the writer.  `Fault` is a condition on one object and one method; `Writes` says which objects are written with which methods.  Induction over the
  statements of a method and over the depth of the document; that every method that is called exists is checked on the table of methods.
* C94: `Swapped` relates documents (one object is replaced by another one), `Replaced` relates files (pieces are replaced by others).  Induction over the depth and the
  statements of a method: conditions, branches and the order of siblings depend on what stays the same.  That a method called for an object adds nothing to the
  element around it is checked on the table of methods.  Calls are those of C85.
* C95: `Exchanged` relates files (one element is exchanged for another one), `Renewed` relates documents.  Induction over the depth; along a path of the reader the
  elements correspond to each other, the exchanged one can only be at its end.  That no method reads anything of the elements objects are made of, but the method
  that makes the object, is checked on the table of methods (`whole_table`, with the list `Gen/Whole.lean`).
* C96: `Inserted` relates files (an element is added), `Gained` relates documents (objects are added).  As C95, with lists that grow (`Grown`) instead of lists
  that correspond; that a new element of a list is met nowhere else on a path, and that all objects of a list are kept, is checked on the table of methods
  (`joins_table`, with the list `Gen/Joining.lean`).
* C97: C95 and then C94 for all objects made of the element at once (`Renewed` in the place of `Swapped`).  That they keep their name is proved from the table of
  methods: a short name is read from the children `SHORT-NAME` and from nowhere else (`nameSlots_table`).
* C98: induction over the depth of the reading: what is read of the larger file can be read of the smaller one, and the objects keep their names, so no
  names clash.  That no method needs an element of a list (no required child, no list that must have members) is checked for the whole table of methods
  (`spares_table`).  `C98_needed` is the counterexample for an element that is no member of a list (the short name).
* C99: from the reader, the documents differ by objects that are added in attributes that may grow (`GainedAt`, checked for the whole table of methods); then
  induction over the writer: conditions are monotone or about attributes that do not grow (`steady_table`), sorting keeps the order of what was there
  (`sortBy_grown`), and new objects are written in elements of their own.  Two kinds of elements are excluded because the writer puts other elements in
  another place when they are there: with a `RECEIVER-IREF` the `SENDER-IREF` is written in `RECEIVER-IREFS`
  (`writer/arxml_writer.py:4594-4597`, `C99_receiver_broken`), and port argument values are written one in the other (`writer/arxml_writer.py:3313`).
* C100: paths of the reader depend on tags only (`select_retold`), and an accessor makes a value of every text that is not blank (`readKind_some`); then
  induction over the reader as for C95.  For the space between elements, a list of the 1088 tags of elements that hold elements and whose text is not read
  (`tools/gen_silent.py`) is checked for the whole table of methods in the kernel (`silent_table`, `hush_table`), and lifted to all files by induction.
  Only the text before the first element inside is in the model; the text after an element (`tail`) is used nowhere in the reader.

No property of the list was left out as inexpressible.

## 4. What of `/repo/src/armodel` is modelled

| file | modelled | not modelled |
|---|---|---|
| `models/M2/**` | class hierarchy, constructors with their tests and initial values, getters, setters, adders, create methods, collections, packages, document | `__str__`, methods of other shapes (kind `other` in `Gen/AccessTable`, about 2 % of the methods), except those of the document, packages, compositions, primitive types and plain lists, which have models of their own |
| `models/utils/uuid_mgr.py` | all | |
| `parser/abstract_arxml_parser.py` | all accessors | logging, file opening |
| `parser/arxml_parser.py` | every method reachable from `load` | never called: `getNvBlockDataMapping`, `getIncludedDataTypeSets`, `readBswModuleDescriptionReleasedTriggers`, `readSwPointerTargetProps`, `readApplicationValueSpecification`, `readInvalidationPolicys`, `readHwPin`, `readEcucAbstractStringParamDef`, `getFlexrayFifoRange`, `getFlexrayFifoConfiguration`, `readDataPrototypeInSenderReceiverInterfaceInstanceRef` |
| `writer/abstract_arxml_writer.py` | all | file opening |
| `writer/arxml_writer.py` | every method reachable from `save` | never called: `setChildLimitElement`, `writeCompositionSwComponentTypes`, `writeApplicationDataTypes`, `writeArtifactDescriptors`, `writeBswModuleDescriptionRequiredTriggers`, `writeEcucValueCollectionEcucValues`, `writeEcucValueCollection`, `writeDataPrototypeInSenderReceiverInterfaceInstanceRef`, `writeHwPin` |
| `parser/file_parser.py`, `lib/cli_args_parser.py` | all | |
| `parser/excel_parser.py`, `parser/connector_xlsx_parser.py`, `report/*` | all | `openpyxl`, column widths and styles |
| `data_models/sw_connector.py` | all | |
| `transformer/*` | all | |
| `lib/sw_component.py`, `lib/system_signal.py` | all | output of log lines |
| `cli/*` | `uuid_checker_cli`; `arxml_dump_cli`; `format_xml_cli`; `file_list_cli`; `arxml_format_cli`; `swc_list_cli`, `system_signal_cli`, `memory_section_cli`; `connector_update_cli`, `connector2xlsx_cli` | argument parsing, printing, logging |

## 5. Simplifications

Each is stated in the comment of the module that makes it. In one place:

* Python: recursion limit and memory are unbounded; the limit of 4300 digits of `int(str)` is ignored; `str.lower` works
  character by character (no final sigma); floats are a parameter (`Py`), rounding included.
* Objects: short names do not change after construction (except in `Model/Rename`); an object is added only to the collection of its parent; a list that is
  passed to a setter is stored, not shared (except in `Model/Heap`); of two pairs of classes with equal names the one
  Python imports last is taken.
* Codec: an object is its class and its attributes; parts that always exist are flattened into the owner with a dotted name; an
  element that is a second one of its class and name, has an empty short name, or is a second one where the attribute holds one
  object, is `outside` the model of the codec (a result of its own: theorems about successful loads say nothing there).
  `None` and the empty text of an element are the same.
* Disk: system calls take effect one after the other, an interruption comes between two of them; files are in UTF-8; line ends are written as on Linux.
* Constructors: the classes derived from Python's `Enum` are left out, and `AUTOSAR()` is called for the first time.
* Renaming: one collection, lookups with a type; threads: one step is one access to `AUTOSAR.__instance` or the initialisation of the new object.
* Lists (`Model/Plain`): one list at a time; `sorted` is an insertion sort with a comparison that raises.
* Heap: what a constructor assigns besides `None` and `[]` has no parts; elements of lists are objects or `None`.
* Tools: the arguments are well-formed (`argparse` ends with status 2 otherwise); log files can be deleted and created; what is logged comes at the end.
* Durations: `OverflowError` (an infinite product) counts as `ValueError`. `arxml-dump`: a missing text is printed as nothing instead of `None`; looking up
  a reference raises no exception of its own.
* XML: names beyond ASCII are a parameter; UTF-8 coding is left out (except in `Model/Disk`); document types are rejected; comments,
  processing instructions and CDATA sections are read and dropped as `ElementTree` does (a parameter turns them off: `format-xml`, whose
  `minidom` keeps them, is only modelled for files without them); names are taken as they are written, which by `C80_usual` is what they stand for in files with the usual declarations (`Model/Namespace` resolves the others; an element without a namespace inside of one with the AUTOSAR namespace, which `getTagName` does not tell apart, and processing instructions with a colon in their target are outside of it); serializer and
  pretty printer are those of Python 3.11.
* Loading into a document with contents (`Model/Load`): `outside` are an element with the name of an existing element of another
  class or attribute, and the name of an existing one where the create method makes a duplicate. Members of a merged collection
  keep the order of creation per attribute.
* Calls of the registries during `load` (`Model/Calls`): whether an accessor of a scalar registers the literal it makes is a parameter; inside
  an object the calls are in the order of the statements, not of the children. The `ValueError` of a second, different root composition is caught
  by the reader and only logged, so it is no error here. A BSW implementation read again without a reference keeps, and registers again, the one
  it had (`keepRefs`).
* The `DEST` of the references of com specs is checked while the reference is read, not when the com spec is added to the port: a file that violates
  several rules may raise another exception in the code.
* Files: a file that cannot be decoded is left out; `os.walk` is what it returns; `os.path.realpath` is a parameter; a path with two
  leading slashes counts as one with one.
* Tables: an Excel cell is a text or empty; a sheet is its name and rows of equal width; that `openpyxl` renames the second of
  two sheets with the same name is left out.

## 6. Disagreements between the code and the properties

Each has a theorem ending in `_broken` with a concrete witness, unless marked (read).

* C05: removal leaves an empty index entry; untyped lookup raises IndexError, untyped existence says yes.
* C06/C07: create methods without a class in the lookup return an element of another class; 59 create methods test
  `x not in list` with the name and always append.
* C09: two members of one container with the same short name (different classes) are not both reachable by path; a package hides
  a same-named element (C39_find_broken).
* C12: `find` on a second document searches the process-wide one.
* C14: `getDuplicateUUIDs` lists every UUID.
* C16: references are not followed when the category is a literal object; cycles do not end.
* C20/C21: octal texts, decimal integers beyond 53 bits, trailing garbage after hexadecimal or binary numbers.
* C23: an object that was given a text keeps writing that text after a new value was assigned.
* C24: a text with a minus sign can be assigned to a positive integer.
* C25: short values of references with characters other than word characters.
* C27: UUID of booleans, T and UUID of times; a float without value is written as `None`.
* C30: tabs and line ends in attribute values, carriage returns in text. C31: quotation marks with `unescape_entities`.
* C32: text before inline markup grows by white space with every save.
* C33: `Spec/Defects.lean`, 50 entries.
* C35: `EcucValueCollection`, `TriggerInterface` and a third kind are accepted and not written.
* C36: value specifications with unknown tags stop loading even in warning mode; unknown first children are taken for content.
* C39, C83: attributes of a package or element that is defined in two files are overwritten or erased by the later file.
* C42: blank lines give the path `""`; indented comments are taken as paths; the command line variant does not skip comments.
* C44: names known before keep their place in the name index; the end points written are not the ones the update sets.
* C45/C46: setters that store None, adders that append None.
* C47: the table of DEST names knows few tags. C49: columns of an earlier sheet are used for a later one without titles; the report
  raises AttributeError on loaded connectors. C51: unnamed list items are doubled by loading a file again.
* C52: removed ports and channels are still listed by the methods that look at a list of their own.
* C54: `arxml-dump` visits sub-packages twice, so a package inside n others is printed 2^n times.
* C55: `xml-format` removes blank lines inside the text of an element and turns the other line ends of `str.splitlines` (such as
  U+0085, U+2028, form feed) into newlines; a line end in an attribute value becomes a blank when a file is formatted twice.
* C56: a relative path that starts with `#` is written and then skipped as a comment; a blank line in a list given to the tool stops it.
* C57: `--remove-admin-data` ("Remove all the AdminData") leaves the admin data of what is inside of an element, for example of a port; with
  `-w` the reader skips errors but the writer raises, so nothing is written.
* C58: `swc-list` does not list `PARAMETER-SW-COMPONENT-TYPE`, which the reader does not know; `memory-section` lists system signals and
  prints short names even with `--format long` (the analyzer only knows `full`).
* C60: `ARPackage` is no `Referrable`, so `uuid-checker` raises `NotImplementedError` for a UUID shared with a package (`C60_package_broken`),
  likewise for `QUEUED-` and `NONQUEUED-RECEIVER-COM-SPEC`, whose attributes are read twice; the attributes of
  `ECUC-DESTINATION-URI-DEF-SET` are not read.
* C61 (read): a BSW implementation that is read again from a file without `BEHAVIOR-REF` is registered again, so `getImplementation` gives it even if
  another implementation was registered for the behavior later; an SWC implementation loses its reference instead.
* C62: `PRPortPrototype` checks no com spec, and `RPortPrototype` accepts no `NvRequireComSpec`: a file with `NV-REQUIRE-COM-SPEC` in an R port can
  not be loaded, in either mode.
* C64: the connectors `connector-update` creates connect nothing in the file that is written; a row with the name of a connector the composition had
  creates no connector, although the one it had is removed; a new delegation connector makes the output unreadable in strict mode
  (`Invalid PortPrototype of DELEGATION-SW-CONNECTOR`).
* C65: `connector2xlsx` raises `AttributeError` for every file in which a composition has an assembly or delegation connector.
* C66: an integer of more than 53 bits that a program assigned is another number when the file is loaded (all decimal texts are read as floats). Infinity,
  `nan`, a float object without a value and a truth value assigned to a number are written as `inf`, `nan`, `None`, `True`: the file is written without an
  error and cannot be loaded. Assigning to a number that was read from a file changes its value but not what is saved.
* C68: `periodMs` truncates the product `1000 * period`: 1.001 s is reported as 1000 ms, and so are further numbers of milliseconds, each one less than
  it is. BSW timing events and minimum start intervals below a millisecond are reported as 0; `TimingEvent.periodMs` handles that case.
* C69: `arxml-dump` calls `getArgumentDataPrototypes`, which operations do not have: an `AttributeError` for every file with a client-server operation. It
  formats the service id, an object, with `%d`: no file with a BSW timing event is dumped to its end.
* C70: `saveToFile` opens the file for writing, which makes it empty, and then writes. If the program is interrupted in between, the old document is lost.
* C71: `BswInterruptEvent` cannot be constructed (its constructor calls that of the base class without the arguments it needs). `ARType` and
  `AtomicSwComponentType` are declared abstract, but nothing prevents constructing them. `BswEntryRelationshipEnum` and `GraphicFitEnum` have no constructor
  of their own, so that they need the list of values, unlike all other enumerations.
* C72: the setter `shortName` changes the name, not the index of the collection: a renamed element is found only under its old name, and an element of the
  same class can be created beside it with the new name.
* C73: two threads whose first calls of `getInstance` overlap can get an exception, a document without attributes, or two different documents.
* C74: `createKeySlotContent` makes a new object at every call, and only the first one of a name is an element; `ValueList.getVfs` raises `TypeError` with two
  values or more (`ARNumerical` has no order); `Code.getArtifactDescriptors(category)` raises `AttributeError` if a descriptor has no category.
* C75: setters store the list they are given and getters return the list itself: a list given to two objects is changed for both by an adder of one.
* C77: `arxml-format` and `armodel-uuid-checker` without `-v`, `armodel-system-signal` and `armodel-memory-section` end with status 0 after an exception; the
  tools delete a file with the name of their log file before they read the input, also if it is the input.
* (proved, `C81_broken`) `load` looks at the local name of the root only (`getPureTagName`).  A file of AUTOSAR 3, or one without a namespace, is not rejected,
  in strict mode either: nothing in it is found, and it loads as a document without packages.
* (read) `memory_section_cli` prints system signals; `SENDER-IREF` is nested in `RECEIVER-IREFS`; attributes of `MSR-QUERY-P1` are not
  read; `get/setChildElementOptionalString` do not exist (`arxml_parser.py:6661`, `arxml_writer.py:9036`); `save` writes a default
  schema location if there was none; `setJ1939SharedAddressClusters` appends; `InternalTriggeringPoint.sw_impl_policy` is not
  initialised; `xml:space` and white-space-only text of `SD` are lost; the long name of an SDG caption is lost.
* C84: `setValue` does not use `validateEnumValue`: every text is accepted. `CycleRepetitionType` and five others have no values. The interval type of a limit is
  stored as it is in the file (`CLOSED`), which is not one of the values of `IntervalTypeEnum` (`closed`); variation points convert it.
* C85: `save` does not check that mandatory attributes are set. A `BswCalledEntity` without `implementedEntryRef` is saved without complaint, and the file
  cannot be loaded (`getChildElementRefType` raises).
* C86: 880 attributes (counted per method of the reader) can be set and are not loaded: for instance `CompuMethod.displayFormat`, `RPortPrototype.mayBeUnconnected`,
  `System.pncVectorLength`, `DataFilter.max`, `ISignalIPduGroup.nmPduRefs`. Most are not saved either. Some are saved and dropped when the file is loaded: the long
  name, description and admin data of the events of a `BswInternalBehavior` and of some twenty other classes, whose reader methods leave out `readIdentifiable`, and
  `SwcInternalBehavior.includedDataTypeSets` (`getIncludedDataTypeSets`, `arxml_parser.py:1978`, is never called).
* C87: `readDiagnosticConnection` (`arxml_parser.py:6386`) stores the content of `RESPONSE-REF` in `responseOnEventRef`, although the class has an attribute
  `responseRef` as well; the writer (`arxml_writer.py:8686`) makes the same mistake, so that saving and loading does not show it.
* C89: `readEndToEndTransformationISignalPropsDataIds` (`arxml_parser.py:8517-8520`) reads only the first `DATA-ID`, the writer (`arxml_writer.py:8516-8518`) writes all.
* C91: a mode switch point without `MODE-GROUP-IREF` is loaded without a warning and then `save` raises `AttributeError` in either mode
  (`arxml_writer.py:3121`), so the whole document cannot be saved (`C91_broken`).
* C92: a file with a `REFERENCE-VALUE-SPECIFICATION` (or any other value specification missing in `getValueSpecification`, `arxml_parser.py:5374-5393`) cannot be loaded
  even with warnings: after the warning the local variable is used without a value (`C92_broken`).

## 7. Axioms of the theorems of the manifest

<!-- axioms -->
* `none` (12): C05_untyped_exists_broken C05_untyped_lookup_broken C06_typed_count C06_broken_count C07_broken_count C71_count C72_unseen C74_no_name C74_descriptors_all C84_binding C84_count C84_unchecked_broken
* `propext` (16): C07_lists_uniform C14_duplicates_broken C36_supported_read C42_crlf C45_none_count C45_unset_broken C46_count C49_missing_broken C73_settled_partial C73_one_thread C73_some C73_race_broken C74_values_broken C74_descriptors_broken C84_history C84_empty_broken
* `propext, Quot.sound` (37): C07_searched_list C13_clear_registries C13_attributes C14_objects C14_no_uuid C14_duplicates_partial C14_cli_report C15_to_implementation C15_to_application C15_inverse C16_chain_partial C17_first_wins C17_root C26_revision C41_nested_kept C42_lines C45_initial_partial C45_getters_total C46_overwrite_broken C48_behavior_map C52_created_count C62_added_partial C62_rejected C71_event_broken C71_enum_broken C74_current C74_one_per_name C74_values_partial C75_set C75_add_exact C75_new C75_shared_broken C84_exact_partial C84_distinct C85_methods C85_creates C86_saved_partial
* `propext, Classical.choice, Quot.sound` (405): C01_unique_name_type C01_enumeration_refines C02_lookup_typed C02_exists_typed C02_lookup_untyped C02_exists_untyped C03_create_delivers C03_create_idempotent C04_order_stable C05_remove_partial C05_missing_name_keyError C05_wrong_exception C06_typed_create C06_noclash_partial C06_name_clash_broken C07_dedicated_list_partial C07_create_again C07_duplicates_broken C07_field_broken C07_removal_broken C08_create_package C08_create_again C08_listing C09_full_name C09_resolves C09_find_sound C09_ambiguous_broken C10_concat C10_empty C10_segment C10_slashes C10_member C100_texts C100_space C11_dest C11_no_dest C12_broken C12_singleton_partial C13_clear_members C16_sound C16_not_followed_broken C16_cycle_broken C17_systems_listing C18_release C18_injective C19_verbatim C20_words C20_hex C20_bin C20_decimal C20_decimal_integer_partial C20_large_broken C20_octal_broken C21_accepted_iff C21_rejected_partial C21_trailing_broken C21_rejected_text_kept_broken C22_accepted C22_rejected C22_unambiguous C23_written C23_int_partial C23_text_partial C23_boolean_partial C23_stale_broken C23_bool_broken C23_boolean_stale_broken C24_int_partial C24_history_partial C24_text_broken C24_loaded C24_loaded_negative C25_short C25_whole C25_short_broken C27_reference C26_loaded C27_loaded C27_literal C27_limit C27_number C27_boolean_uuid_broken C27_time_attributes_broken C27_float_unset_broken C28_written C28_read C28_absent C29_foreign C29_reader C29_attribute C29_swap C29_first C30_exact C30_partial C30_iff C30_saved_iff C30_broken C31_partial C31_iff C31_broken C32_partial C32_broken C32_document_broken C33_fuel C33_partial C33_object_partial C33_broken C33_written C33_file_partial C34_partial C35_C38_elements_partial C35_broken C35_broken_collection C36_modes_agree C36_save_modes_agree C36_foreign_partial C36_pruned C36_unsupported_skipped C36_unsupported_raises C36_missing_raises C36_missing_skipped C36_unbound_broken C36_first_broken C37_sdg C37_adminData C38_packages C38_document C39_new C39_partial C39_files_partial C39_alone C39_order_partial C39_find_partial C39_broken C39_find_broken C40 C40_history C41_removed C41_unchanged C42_listed C42_listed_partial C42_blank_count C42_blank_broken C42_directory C42_no_invention C42_order C42_total C42_join C42_cli_missing C42_cli_agrees C42_cli_comment_broken C43_sorted C43_order_independent C44_fits C44_exact C44_fresh_partial C44_history_partial C44_document C44_reused_broken C44_reused_witness C44_endpoints_broken C44_other_kind_broken C45_last_value_partial C45_last_value_any C45_adders_do_not_interfere C45_from_new_partial C45_none_broken C46_append_partial C46_append_later_partial C46_append_any C46_append_once C46_none_broken C46_twice_broken C47_own_dest_broken C47_known_dest_partial C49_assembly_columns C49_delegation_columns C49_rows_added C49_missing_partial C49_report_assembly_partial C49_report_delegation_partial C49_report_broken C50 C51_partial C51_doubled C51_same_partial C51_broken C52_listing C52_order C52_created C52_removal_broken C53_collected C53_printed C53_names C54_dumped C54_times C54_once_partial C54_once_broken C55_formatted C55_kept_partial C55_text C55_again_partial C55_kept_broken C55_again_broken C56_means C56_relative_partial C56_absolute_partial C56_total C56_comment_broken C56_blank_broken C57_saved C57_built C57_loaded C57_nothing C57_output C57_reload_partial C57_nested_broken C57_warning_broken C58_swc_partial C58_signals_partial C58_memory_broken list_case C58_parameter_broken C59_stripped C59_form C59_added C59_references C59_lines C59_joined C60_report_partial C60_document C60_reports C60_package_broken C60_unread_broken C60_twice_broken C61_systems C61_compositions C61_root C61_behavior C61_types C62_loaded_partial C62_both_broken C62_nonvolatile_broken C63_fits C63_fits_more C63_built_partial C63_merged_partial C63_texts C63_files_partial C64_elements C64_refused C64_file_partial C64_wiring_broken C64_delegation_broken C65_partial C65_broken C66_saved_partial C66_value_partial C66_same_number C66_assigned C66_assigned_boolean C66_large_broken C66_infinite_broken C66_unset_broken C66_bool_broken C66_stale_broken C67_built_partial C67_loaded_partial C68_ms_partial C68_even_partial C68_second C68_bound C68_seconds C68_truncated C68_infinite C68_no_value C68_absent C68_lost_broken C68_zero_broken C69_finishes C69_lines_partial C69_files_partial C69_operation_broken C69_timing_broken C70_exception C70_complete C70_truncated C70_interrupted_partial C70_lost_broken C71_construct_partial C71_calls C71_created C71_document C71_loaded C71_blank_partial C71_abstract_broken C72_lookup_partial C72_unique_partial C72_unique_class_partial C72_history C72_repair C72_stale_broken C74_create C74_renamed C74_section C74_slot_partial C74_slot_broken C74_descriptors_partial C75_independent_partial C76_load C76_load_into C76_load_all C77_other_files C77_status_partial C77_format_partial C77_format_broken C77_input_lost_broken C78_load C78_load_into C78_load_all C78_strip C79_grammar C79_unambiguous C80_names C80_same C80_usual C80_prefix C80_saved C80_dom C81_root C81_foreign C81_broken C82_file C82_files C82_independent C82_untouched C82_exists C82_order C82_packages C82_elements C83_divided_partial C83_both_partial C83_per_package C83_per_element C83_broken C84_limit_broken C85_typed C85_object C85_identity C85_program_partial C85_file_partial C85_shaped C85_set C85_add C85_create C85_unset C85_remove C85_inside C85_missing_broken C86_unsaved C86_never_loaded C86_not_written C86_unwritten C86_either C86_broken C87_named_partial C87_absent C87_broken C88_order C89_lists_partial C89_single C89_cut C89_broken C90_order C90_apart_partial C90_file_partial C91_errors C91_saved_partial C91_loaded_partial C91_broken C91_strict_broken C92_partial C92_named C92_into_partial C92_other_partial C92_files_partial C92_order_partial C92_rejected C92_errors C92_modes C92_broken C93_saved C93_rejected C94_change C94_call C95_exchange C95_part C96_insert C97_carry C98_remove C98_all C98_needed C99_shrink C99_grow C99_receiver_broken
