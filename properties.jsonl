{"id": "C01", "title": "No two members share a short name and a concrete type", "statement": "Starting from an empty container (package, component, interface, ...), after any sequence of element additions, get-or-create calls and removals, the container never enumerates two elements that have both the same short name and the same concrete class.", "quantifier": "every finite sequence of add / create / remove operations, every short name and every class hierarchy", "why_tests_cant": "the invariant must survive every interleaving of operations and every inheritance relation between the classes involved", "anchors": ["src/armodel/models/M2/AUTOSARTemplates/GenericStructure/GeneralTemplateClasses/Identifiable.py: CollectableElement.addElement/getElement/IsElementExists/removeElement", "src/armodel/models/M2/AUTOSARTemplates/GenericStructure/GeneralTemplateClasses/Identifiable.py: Identifiable.addElement/getElement/IsElementExists/removeElement"]}
{"id": "C02", "title": "Lookup by name and type agrees with enumeration", "statement": "After any sequence of additions, looking an element up by short name and type returns the first enumerated element that has that name and is an instance of that type, returns None exactly when there is none, and the existence test answers accordingly.", "quantifier": "every sequence of additions, every queried name and type", "why_tests_cant": "lookup uses a separate name index that has to stay in step with the enumerated list for every history", "anchors": ["src/armodel/models/M2/AUTOSARTemplates/GenericStructure/GeneralTemplateClasses/Identifiable.py: CollectableElement.addElement/getElement/IsElementExists/removeElement", "src/armodel/models/M2/AUTOSARTemplates/GenericStructure/GeneralTemplateClasses/Identifiable.py: Identifiable.addElement/getElement/IsElementExists/removeElement"]}
{"id": "C03", "title": "Typed get-or-create is idempotent", "statement": "Calling createX(name) on a package any number of times, interleaved with other creations, always returns the same element, of class X, with that name, contained in the package, and adds at most one element.", "quantifier": "every package state reachable through the API, every name, every class", "why_tests_cant": "idempotence has to hold in every reachable state, not only on a fresh package", "anchors": ["src/armodel/models/M2/AUTOSARTemplates/GenericStructure/GeneralTemplateClasses/ARPackage.py: ARPackage.create*", "src/armodel/models/M2/AUTOSARTemplates/GenericStructure/GeneralTemplateClasses/Identifiable.py: CollectableElement.addElement/getElement/IsElementExists/removeElement", "src/armodel/models/M2/AUTOSARTemplates/GenericStructure/GeneralTemplateClasses/Identifiable.py: Identifiable.addElement/getElement/IsElementExists/removeElement"]}
{"id": "C04", "title": "Additions keep enumeration order", "statement": "Adding or creating an element never removes, replaces or reorders the elements already enumerated: the old enumeration is a prefix of the new one, which is longer by at most one.", "quantifier": "every reachable container and every added element", "why_tests_cant": "saved files list elements in this order; stability must hold for all histories", "anchors": ["src/armodel/models/M2/AUTOSARTemplates/GenericStructure/GeneralTemplateClasses/Identifiable.py: CollectableElement.addElement/getElement/IsElementExists/removeElement", "src/armodel/models/M2/AUTOSARTemplates/GenericStructure/GeneralTemplateClasses/Identifiable.py: Identifiable.addElement/getElement/IsElementExists/removeElement"]}
{"id": "C05", "title": "Removing an element forgets it", "statement": "Removing an element by name (and type) takes exactly that element out of the enumeration, leaves all others in place, and afterwards every lookup, existence test or re-creation behaves as if it had never been added; removing a missing element raises KeyError and changes nothing.", "quantifier": "every reachable container, every removed name and type", "why_tests_cant": "stale index entries only show in particular follow-up operations; the claim covers all of them", "anchors": ["src/armodel/models/M2/AUTOSARTemplates/GenericStructure/GeneralTemplateClasses/Identifiable.py: CollectableElement.addElement/getElement/IsElementExists/removeElement", "src/armodel/models/M2/AUTOSARTemplates/GenericStructure/GeneralTemplateClasses/Identifiable.py: Identifiable.addElement/getElement/IsElementExists/removeElement"]}
{"id": "C06", "title": "createX returns an X", "statement": "Every get-or-create method returns an element of the class it is named after, whatever other elements (of other classes) already use the short name in that container.", "quantifier": "every get-or-create method of the model classes, every prior content of the container", "why_tests_cant": "the name clash has to be tried for every method against every other member class", "anchors": ["src/armodel/models/M2/AUTOSARTemplates/**: create* methods", "src/armodel/models/M2/AUTOSARTemplates/SWComponentTemplate/Composition/__init__.py: createSwComponentPrototype, createAssemblySwConnector"]}
{"id": "C07", "title": "Creating the same member twice does not duplicate it", "statement": "For every get-or-create method that also records the new member in a dedicated list, calling it twice with one name leaves exactly one entry for that name in the dedicated list, and that entry is the object returned.", "quantifier": "every get-or-create method with a dedicated list, every name, every prior state", "why_tests_cant": "hundreds of hand-written copies of the pattern exist; the claim is about all of them in all states", "anchors": ["src/armodel/models/M2/AUTOSARTemplates/BswModuleTemplate/**: BswModuleEntry.createArgument", "src/armodel/models/M2/AUTOSARTemplates/**: create* methods appending to a list"]}
{"id": "C08", "title": "Package creation and listing", "statement": "createARPackage(name) on the document or on a package is get-or-create: it returns a package with that name whose parent is the receiver and never creates a second one; getARPackages lists every package exactly once in ascending short-name order.", "quantifier": "every sequence of package creations with arbitrary names", "why_tests_cant": "ordering and uniqueness must hold for all insertion orders", "anchors": ["src/armodel/models/M2/AUTOSARTemplates/GenericStructure/GeneralTemplateClasses/ARPackage.py: createARPackage, getARPackages", "src/armodel/models/M2/AUTOSARTemplates/AutosarTopLevelStructure/__init__.py: createARPackage, getARPackages"]}
{"id": "C09", "title": "Absolute names resolve back to the element", "statement": "The full name of an element is the slash-separated list of the short names from the root; looking up that full name in the document returns an element reached by exactly those short names, and it returns the element itself when no other member of the same containers shares its short name (and no short name contains a slash or is empty).", "quantifier": "every document tree of any depth and every element in it", "why_tests_cant": "names are compared along unboundedly deep paths in arbitrary documents", "anchors": ["src/armodel/models/M2/AUTOSARTemplates/AutosarTopLevelStructure/__init__.py: find", "src/armodel/models/M2/AUTOSARTemplates/GenericStructure/GeneralTemplateClasses/Identifiable.py: Referrable.full_name", "src/armodel/models/M2/AUTOSARTemplates/GenericStructure/GeneralTemplateClasses/ARPackage.py: full_name, getElement"]}
{"id": "C10", "title": "Path lookup semantics", "statement": "find(path) descends one member per non-empty path segment, ignores empty segments (leading, trailing, repeated slashes), gives packages precedence over other elements with the same name, returns None when a segment is missing, and never changes the document.", "quantifier": "every document and every string used as path", "why_tests_cant": "covers all strings and all trees", "anchors": ["src/armodel/models/M2/AUTOSARTemplates/AutosarTopLevelStructure/__init__.py: find, getElement", "src/armodel/models/M2/AUTOSARTemplates/GenericStructure/GeneralTemplateClasses/ARPackage.py: getElement"]}
{"id": "C11", "title": "DEST-checked lookup", "statement": "Looking up a reference with a DEST either returns an element whose kind is exactly the DEST text, returns None when the path does not resolve, or raises; it never returns an element of another kind.", "quantifier": "every document, every reference", "why_tests_cant": "all element kinds and all DEST strings, including ones the library does not know", "anchors": ["src/armodel/models/M2/AUTOSARTemplates/AutosarTopLevelStructure/__init__.py: find, getDestType"]}
{"id": "C12", "title": "A document resolves names in itself", "statement": "find called on a document object resolves the path inside that document, independently of any other document loaded in the process.", "quantifier": "every pair of documents and every path", "why_tests_cant": "needs two documents with arbitrary contents in one process", "anchors": ["src/armodel/models/M2/AUTOSARTemplates/AutosarTopLevelStructure/__init__.py: AbstractAUTOSAR.find, AUTOSARDoc, AUTOSAR.getInstance"]}
{"id": "C13", "title": "clear() forgets everything", "statement": "After clear()/new(), the document is indistinguishable through its accessors from a newly constructed one, whatever was loaded or set before.", "quantifier": "every document state reachable through the API", "why_tests_cant": "every combination of previously set state must be covered", "anchors": ["src/armodel/models/M2/AUTOSARTemplates/AutosarTopLevelStructure/__init__.py: AbstractAUTOSAR.clear, AUTOSAR.new"]}
{"id": "C14", "title": "UUID index is complete and ordered", "statement": "After any sequence of object registrations, the objects listed for a UUID are exactly the registered objects carrying that UUID, in registration order; objects without UUID never appear; the duplicate query lists exactly the UUIDs carried by two or more objects.", "quantifier": "every sequence of registrations", "why_tests_cant": "all sequences, all multiplicities", "anchors": ["src/armodel/models/utils/uuid_mgr.py: UUIDMgr", "src/armodel/cli/uuid_checker_cli.py", "src/armodel/models/M2/AUTOSARTemplates/AutosarTopLevelStructure/__init__.py: addARObject, getARObjectByUUID, getDuplicateUUIDs"]}
{"id": "C15", "title": "Data type mapping conversion", "statement": "After any sequence of data-type maps, converting an application type to its implementation type resolves the implementation of the last map added for it, and conversely; converting an unmapped type raises IndexError; the two directions are inverse when the registered maps form a bijection.", "quantifier": "every sequence of maps, every queried type reference", "why_tests_cant": "last-writer-wins over arbitrary sequences", "anchors": ["src/armodel/models/M2/AUTOSARTemplates/AutosarTopLevelStructure/__init__.py: addDataTypeMap, convertToImplementationDataType, convertToApplicationDataType"]}
{"id": "C16", "title": "Data type resolution ends at a concrete type", "statement": "Resolving a data type follows TYPE_REFERENCE and DATA_REFERENCE links and returns the first type on the chain that is not a reference; it terminates for every document.", "quantifier": "every type graph, including cyclic ones", "why_tests_cant": "chains of any length and shape", "anchors": ["src/armodel/models/M2/AUTOSARTemplates/AutosarTopLevelStructure/__init__.py: getDataType"]}
{"id": "C17", "title": "First registration wins for systems, compositions and the root composition", "statement": "Registering a system, a composition type or the root composition prototype under a short name that is already registered never replaces the registered one; a root composition with a different name raises ValueError and leaves the first in place.", "quantifier": "every sequence of registrations", "why_tests_cant": "order dependence over arbitrary sequences", "anchors": ["src/armodel/models/M2/AUTOSARTemplates/AutosarTopLevelStructure/__init__.py: addSystem, addCompositionSwComponentType, setRootSwCompositionPrototype"]}
{"id": "C18", "title": "Release selection", "statement": "setARRelease accepts exactly the published release names, sets the schema location of that release (different releases select different schemas), and on any other string raises ValueError leaving the schema location unchanged.", "quantifier": "every string", "why_tests_cant": "infinitely many strings must be rejected", "anchors": ["src/armodel/models/M2/AUTOSARTemplates/AutosarTopLevelStructure/__init__.py: setARRelease, release_xsd_mappings"]}
{"id": "C19", "title": "Numeric text is preserved verbatim", "statement": "A numerical value read from a file is written back with the identical characters (hexadecimal, leading zeros, exponent and sign included), for every text the reader accepts.", "quantifier": "every accepted numeric text", "why_tests_cant": "infinite set of lexical forms", "anchors": ["src/armodel/models/M2/AUTOSARTemplates/GenericStructure/GeneralTemplateClasses/PrimitiveTypes.py: ARNumerical", "src/armodel/parser/abstract_arxml_parser.py: getChildElementOptionalNumericalValue", "src/armodel/writer/abstract_arxml_writer.py: setChildElementOptionalNumericalValue"]}
{"id": "C20", "title": "Numeric text denotes the right number", "statement": "Hexadecimal (0x), binary (0b), decimal, signed and boolean-word texts are converted to the number they denote.", "quantifier": "every text of the documented numeric formats", "why_tests_cant": "infinite set of numerals", "anchors": ["src/armodel/models/M2/AUTOSARTemplates/GenericStructure/GeneralTemplateClasses/PrimitiveTypes.py: ARNumerical._convertStringToNumberValue"]}
{"id": "C21", "title": "Malformed numbers are rejected", "statement": "A text that is not of one of the documented numeric formats raises ValueError rather than being given some value.", "quantifier": "every string", "why_tests_cant": "infinitely many malformed strings", "anchors": ["src/armodel/models/M2/AUTOSARTemplates/GenericStructure/GeneralTemplateClasses/PrimitiveTypes.py: ARNumerical._convertStringToNumberValue"]}
{"id": "C22", "title": "Boolean conversion", "statement": "Boolean text true/1/false/0 (any letter case, surrounding blanks ignored) is converted to the corresponding truth value and written back with the same (trimmed) text; any other non-integer text raises.", "quantifier": "every string", "why_tests_cant": "infinite input set", "anchors": ["src/armodel/models/M2/AUTOSARTemplates/GenericStructure/GeneralTemplateClasses/PrimitiveTypes.py: ARBoolean", "src/armodel/parser/abstract_arxml_parser.py: getChildElementOptionalBooleanValue"]}
{"id": "C23", "title": "Assigning a value changes what is written", "statement": "After assigning a new value to an existing numerical, float or boolean object, its text (what the writer emits) denotes the newly assigned value.", "quantifier": "every prior state of the object and every assigned value", "why_tests_cant": "depends on the history of previous assignments", "anchors": ["src/armodel/models/M2/AUTOSARTemplates/GenericStructure/GeneralTemplateClasses/PrimitiveTypes.py: ARNumerical.value, ARBoolean.value, __str__"]}
{"id": "C24", "title": "Positive integers are never negative", "statement": "A positive-integer object never holds a negative value: assigning or loading a negative number raises ValueError and keeps the previous value.", "quantifier": "every sequence of assignments and every loaded text", "why_tests_cant": "all histories and all numerals", "anchors": ["src/armodel/models/M2/AUTOSARTemplates/GenericStructure/GeneralTemplateClasses/PrimitiveTypes.py: ARPositiveInteger.value", "src/armodel/parser/abstract_arxml_parser.py: getChildElementOptionalPositiveInteger"]}
{"id": "C25", "title": "References survive and abbreviate correctly", "statement": "A reference keeps its BASE, DEST and path text exactly through save and load; its short value is the last path segment of an absolute path of two or more word segments, and the whole text otherwise.", "quantifier": "every base, dest and path text", "why_tests_cant": "all strings", "anchors": ["src/armodel/models/M2/AUTOSARTemplates/GenericStructure/GeneralTemplateClasses/PrimitiveTypes.py: RefType.getShortValue", "src/armodel/parser/abstract_arxml_parser.py: getChildElementOptionalRefType", "src/armodel/writer/abstract_arxml_writer.py: setChildElementOptionalRefType"]}
{"id": "C26", "title": "Revision labels are validated", "statement": "A revision label is accepted on load exactly when it starts with major.minor.patch digits; otherwise ValueError is raised, in both strict and warning mode.", "quantifier": "every label text", "why_tests_cant": "infinite set of labels", "anchors": ["src/armodel/parser/abstract_arxml_parser.py: getChildElementOptionalRevisionLabelString"]}
{"id": "C27", "title": "Scalar accessors of writer and reader are inverse", "statement": "For each scalar kind (literal, identifier, verbatim string, numerical, integer, positive integer, float, time, boolean, revision label, date, limit, reference), writing a value under a tag and reading that tag back yields a value with the same text and the attributes that kind carries.", "quantifier": "every value of each scalar kind, every tag, every surrounding content", "why_tests_cant": "all values and all sibling contents", "anchors": ["src/armodel/parser/abstract_arxml_parser.py: getChildElement*", "src/armodel/writer/abstract_arxml_writer.py: setChildElement*"]}
{"id": "C28", "title": "Absent stays absent", "statement": "Writing an unset (None) scalar adds nothing to the XML, and reading a missing tag yields None; so unset attributes are not invented by save/load.", "quantifier": "every element content, every tag", "why_tests_cant": "all element contents", "anchors": ["src/armodel/parser/abstract_arxml_parser.py", "src/armodel/writer/abstract_arxml_writer.py"]}
{"id": "C29", "title": "Unknown and foreign siblings do not influence reading", "statement": "Reading one attribute of an element depends only on the children along its own tag path: inserting, deleting or permuting other children does not change the result; with repeated children the first is used.", "quantifier": "every element, every insertion of foreign children at any position", "why_tests_cant": "unbounded contents and positions", "anchors": ["src/armodel/parser/abstract_arxml_parser.py: find, findall, convert_find_key"]}
{"id": "C30", "title": "Pretty printing and empty-tag patching do not change content", "statement": "Saving pretty-prints the tree and expands self-closing tags; re-reading the file gives a tree with the same tags, attributes, child order and leaf texts.", "quantifier": "every element tree whose non-leaf elements have no text", "why_tests_cant": "all trees of any depth and all texts, including markup characters", "anchors": ["src/armodel/writer/abstract_arxml_writer.py: saveToFile, patch_xml"]}
{"id": "C31", "title": "Entity unescaping option keeps files readable", "statement": "With the unescape_entities option, the saved file still parses and has the same content as without it.", "quantifier": "every element tree", "why_tests_cant": "attribute and text contents are arbitrary", "anchors": ["src/armodel/writer/abstract_arxml_writer.py: patch_xml"]}
{"id": "C32", "title": "Saving and loading repeatedly does not change text", "statement": "Text next to inline markup (emphasised words inside a paragraph or long name) is the same after any number of save/load cycles.", "quantifier": "every mixed-content element, every number of cycles", "why_tests_cant": "requires arbitrary numbers of cycles", "anchors": ["src/armodel/writer/abstract_arxml_writer.py: saveToFile", "src/armodel/parser/arxml_parser.py: readLLongName"]}
{"id": "C33", "title": "Load, save, load is the identity on the model", "statement": "For every supported class, reading an XML element, writing the resulting object and reading it again yields the same object: nothing that was read is lost or altered by saving.", "quantifier": "every XML element of the class (any nesting depth, any attribute values, any list lengths)", "why_tests_cant": "unbounded XML inputs for several hundred classes", "anchors": ["src/armodel/parser/arxml_parser.py: read*/get*", "src/armodel/writer/arxml_writer.py: write*/set*"]}
{"id": "C34", "title": "Saving is a fixed point after one cycle", "statement": "For every supported class, writing, reading and writing again produces the same XML element as the first write.", "quantifier": "every model object of the class that the reader can produce", "why_tests_cant": "unbounded model objects", "anchors": ["src/armodel/parser/arxml_parser.py", "src/armodel/writer/arxml_writer.py"]}
{"id": "C35", "title": "Package elements are written back under the tag they were read from", "statement": "For every element kind the reader accepts in a package, the writer emits that element under the same tag, whatever other kinds are related to it by inheritance.", "quantifier": "every element tag accepted in a package and the element class it creates", "why_tests_cant": "the writer uses an ordered chain of instance tests over a deep class hierarchy", "anchors": ["src/armodel/parser/arxml_parser.py: readARPackageElements", "src/armodel/writer/arxml_writer.py: writeARPackageElement"]}
{"id": "C36", "title": "Strict mode raises, warning mode continues", "statement": "An unsupported element or a missing mandatory reference raises in strict mode and is skipped (with a log entry) in warning mode, in which everything else in the file is read exactly as if the unsupported element were not there.", "quantifier": "every document, any number and position of unsupported elements", "why_tests_cant": "all positions and combinations", "anchors": ["src/armodel/parser/abstract_arxml_parser.py: raiseError, notImplemented", "src/armodel/parser/arxml_parser.py: readARPackageElements", "src/armodel/writer/abstract_arxml_writer.py: notImplemented"]}
{"id": "C37", "title": "Special data groups and admin data round-trip", "statement": "Admin data (language, used languages, doc revisions, special data groups of any nesting depth) read from a file is unchanged by save and load.", "quantifier": "every admin-data element, special data nested to any depth", "why_tests_cant": "recursion of unbounded depth", "anchors": ["src/armodel/parser/arxml_parser.py: getAdminData, getSdg", "src/armodel/writer/arxml_writer.py: setAdminData, setSdg"]}
{"id": "C38", "title": "Deterministic layout", "statement": "Saving lists sub-packages in ascending short-name order and package elements in insertion order; it neither drops nor repeats any.", "quantifier": "every package tree", "why_tests_cant": "all trees and insertion orders", "anchors": ["src/armodel/writer/arxml_writer.py: writeARPackages, writeARPackageElements"]}
{"id": "C39", "title": "Loading several files merges their packages", "statement": "Loading files one after another into one document yields the union: same-named packages are merged, every element of every file is found under its path (first definition wins for equal name and type), and the order of loading does not matter for which names resolve.", "quantifier": "every sequence of files", "why_tests_cant": "all sequences of files and all overlaps", "anchors": ["src/armodel/parser/arxml_parser.py: load, readARPackages"]}
{"id": "C40", "title": "Loading then clearing leaves nothing behind", "statement": "The result of loading a file into a cleared document equals the result of loading it into a fresh one.", "quantifier": "every prior history and every file", "why_tests_cant": "arbitrary history", "anchors": ["src/armodel/parser/arxml_parser.py: load", "src/armodel/models/M2/AUTOSARTemplates/AutosarTopLevelStructure/__init__.py: clear"]}
{"id": "C41", "title": "Admin-data removal", "statement": "After running the admin-data transformer no package and no package element of the document has admin data, and nothing else of the document changed.", "quantifier": "every document", "why_tests_cant": "all package trees", "anchors": ["src/armodel/transformer/admin_data.py: AdminDataTransformer"]}
{"id": "C42", "title": "File list expansion", "statement": "The file list parser returns the listed ARXML paths in order, skipping comment lines and blank lines, and never invents a path.", "quantifier": "every list file content and directory content", "why_tests_cant": "all contents", "anchors": ["src/armodel/parser/file_parser.py: FileListParser"]}
{"id": "C43", "title": "Connector listing is a sorted permutation", "statement": "The typed connector lists of a composition contain exactly the connectors of that type, in ascending short-name order.", "quantifier": "every composition state", "why_tests_cant": "all insertion orders", "anchors": ["src/armodel/models/M2/AUTOSARTemplates/SWComponentTemplate/Composition/__init__.py: getAssemblySwConnectors, getDelegationSwConnectors"]}
{"id": "C44", "title": "Connector update replaces connectors", "statement": "Updating a composition from a connector table leaves exactly the connectors of the table, each with the end points given in its row, and these end points are the ones written to the file.", "quantifier": "every composition and every table", "why_tests_cant": "all prior connectors and all tables", "anchors": ["src/armodel/parser/connector_xlsx_parser.py: ConnectorXlsReader", "src/armodel/cli/connector_update_cli.py", "src/armodel/models/M2/AUTOSARTemplates/SWComponentTemplate/Composition/__init__.py: removeAllAssemblySwConnector"]}
{"id": "C45", "title": "Setter conventions", "statement": "For every model attribute with a plain setter and getter, the getter returns the last non-None value set (or None if none was set); setters of one attribute do not affect the getters of other attributes.", "quantifier": "every class, every attribute pair, every sequence of setter calls", "why_tests_cant": "thousands of accessor pairs and all call sequences", "anchors": ["src/armodel/models/M2/AUTOSARTemplates/**: set*/get* methods"]}
{"id": "C46", "title": "Adders append", "statement": "For every list attribute with an adder and a list getter, the getter returns the added values in the order of addition, without the None values.", "quantifier": "every class, every sequence of adder calls", "why_tests_cant": "all sequences", "anchors": ["src/armodel/models/M2/AUTOSARTemplates/**: add*/get* methods"]}
{"id": "C47", "title": "A reference whose DEST is the element's own tag resolves", "statement": "If an element is stored at an absolute path and a reference to that path carries as DEST the XML tag under which the element is read, looking the reference up by path and DEST returns that element.", "quantifier": "every document, every element, every reference to it", "why_tests_cant": "one case per element class and every tree", "anchors": ["src/armodel/models/M2/AUTOSARTemplates/AutosarTopLevelStructure/__init__.py: find", "src/armodel/models/M2/AUTOSARTemplates/GenericStructure/GeneralTemplateClasses/Identifiable.py"]}
{"id": "C48", "title": "Implementation and behaviour maps", "statement": "The behaviour found for an implementation is the one of the last map registered for it since the last clear(), and conversely for the implementation of a behaviour; asking for an unmapped one returns None without an exception.", "quantifier": "every sequence of registrations and clears, every queried path", "why_tests_cant": "last-writer-wins over arbitrary sequences in both directions", "anchors": ["src/armodel/models/M2/AUTOSARTemplates/AutosarTopLevelStructure/__init__.py: addImplementationBehaviorMap, getBehavior, getImplementation"]}
{"id": "C49", "title": "Connector tables are read and reported by title", "statement": "The rows of a connector sheet are read by the title of their column, whatever the order of the columns and whatever sheets were read before; a sheet that lacks a title is refused. Reporting the connectors of a composition gives a sheet that reads back as the same rows.", "quantifier": "every workbook (sheets, title rows, rows) and every composition state", "why_tests_cant": "all column orders, sheet sequences and compositions", "anchors": ["src/armodel/parser/excel_parser.py: AbstractExcelParser.getColumnTitles, checkColumnTitles", "src/armodel/parser/connector_xlsx_parser.py: readAssemblySwConnectors, readDelegationSwConnectors, read", "src/armodel/report/connector_xls_report.py: ConnectorXlsReport"]}
{"id": "C50", "title": "Saving invents nothing", "statement": "Every text and every attribute value of a saved document is a text or attribute value of the file that was loaded, possibly without surrounding white space, or one of a fixed list of words the library has of its own.", "quantifier": "every file, every document loaded from it, in strict and in warning mode", "why_tests_cant": "all documents, all element classes and all writers", "anchors": ["src/armodel/parser/arxml_parser.py: load", "src/armodel/writer/arxml_writer.py: save"]}
{"id": "C51", "title": "Loading a file twice changes nothing", "statement": "Loading a file a second time into the same document leaves the document as it is: no package, element or attribute value is added, lost or changed.", "quantifier": "every file", "why_tests_cant": "every attribute of every class must be assigned in an idempotent way", "anchors": ["src/armodel/parser/arxml_parser.py: load, read*", "src/armodel/models/M2/**: add*, set*, create*"]}
{"id": "C52", "title": "Typed listings are complete", "statement": "A method listing the members of one kind of an object (getSwComponentTypes, getUnits, getPPortPrototypes, ...) returns exactly the members of that kind, each once, in the order of short names where it promises to sort; in particular everything a create method of the object returned.", "quantifier": "all 170 listing methods, all create methods, every history of calls on the object", "why_tests_cant": "the class filter, the list it looks at and the create methods are written separately for every class", "anchors": ["src/armodel/models/M2/**: methods returning filter(...)/sorted(...) lists"]}
{"id": "C53", "title": "Listing tools report every component", "statement": "swc-list and system-signal-list print one line for every software component (system signal) contained in a package of the loaded documents, at any nesting depth, and nothing else, in the order of short names; a filter keeps exactly the components of the class.", "quantifier": "every document", "why_tests_cant": "arbitrary nesting and contents", "anchors": ["src/armodel/lib/sw_component.py: SwComponentAnalyzer", "src/armodel/lib/system_signal.py: SystemSignalAnalyzer"]}
{"id": "C54", "title": "The dump shows every package once", "statement": "arxml-dump prints one line for every package of the document.", "quantifier": "every document, packages at any depth", "why_tests_cant": "arbitrary nesting", "anchors": ["src/armodel/cli/arxml_dump_cli.py: show_ar_package"]}
{"id": "C55", "title": "Formatting keeps the data", "statement": "xml-format turns every readable XML file into a readable one with the same elements in the same order, the same attributes and the same texts of the elements without children; formatting the result again changes nothing.", "quantifier": "every XML file that can be parsed (elements, attributes, texts of any size, depth and characters)", "why_tests_cant": "arbitrary nesting, texts and characters that the pretty printer, the line splitter and the patch treat specially", "anchors": ["src/armodel/cli/format_xml_cli.py: perform_format, patch_xml"]}
{"id": "C56", "title": "A written list of files names the same files", "statement": "The list written by armodel-file-list, given as @list to any tool, stands for exactly the files found, in the same order: every relative path leads from the current directory to the file it was made for.", "quantifier": "every file system, list of arguments, current directory and path", "why_tests_cant": "arbitrary paths with . and .., common prefixes of any length, arbitrary file names", "anchors": ["src/armodel/cli/file_list_cli.py: main", "src/armodel/parser/file_parser.py: FileListParser", "src/armodel/lib/cli_args_parser.py: InputFileParser"]}
{"id": "C57", "title": "arxml-format --remove-admin-data removes admin data and nothing else", "statement": "The file written with the option is the file written without it, minus the admin data of the document, of the packages at any depth and of their elements; it loads as the document with this admin data removed, and removing it again changes nothing.", "quantifier": "every input file, document, option of the tool and depth of packages", "why_tests_cant": "arbitrary documents and nesting; removing an optional part must not shift, drop or reorder any of some 700 kinds of elements", "anchors": ["src/armodel/cli/arxml_format_cli.py: perform_format", "src/armodel/transformer/admin_data.py: AdminDataTransformer", "src/armodel/parser/arxml_parser.py: readAdminData", "src/armodel/writer/arxml_writer.py: writeAdminData"]}
{"id": "C58", "title": "What the listing tools print is what is in the files", "statement": "swc-list and system-signal print one line for every software component (system signal) that is in a package, at any depth, of one of the given files, once even if several files define it, and nothing else; sorted by short name, as short name or path as asked; a filter keeps exactly the compositions.", "quantifier": "every list of arguments and file system, every content of the files", "why_tests_cant": "arbitrary files, nesting and overlap between files", "anchors": ["src/armodel/cli/swc_list_cli.py: main", "src/armodel/cli/system_signal_cli.py: main", "src/armodel/cli/memory_section_cli.py: main", "src/armodel/lib/sw_component.py: SwComponentAnalyzer", "src/armodel/lib/system_signal.py: SystemSignalAnalyzer"]}
{"id": "C59", "title": "Comments in a file do not matter", "statement": "A file that can be read gives the same document after its comments and processing instructions are removed and its CDATA sections are written as ordinary text (unless that joins ]] and >, which XML does not allow), and after its line ends are changed to CRLF; adding a well-formed comment or processing instruction before a tag or at the end of a readable file does not change what is read.", "quantifier": "every file content, every comment and processing instruction, every place before a tag", "why_tests_cant": "arbitrary contents and places of comments, texts split by comments any number of times", "anchors": ["src/armodel/parser/arxml_parser.py: ARXMLParser.load", "src/armodel/parser/abstract_arxml_parser.py: AbstractARXMLParser"]}
{"id": "C60", "title": "uuid-checker reports the duplicates in the files", "statement": "Run on a file or a list of files, uuid-checker reports a UUID, once, with the paths of the elements, if two elements of packages at different places of the files have it; and a UUID it reports occurs at two different places of the files.", "quantifier": "every set of files, every depth of packages, any number of elements with the same UUID", "why_tests_cant": "the UUID can be on any of the hundreds of kinds of elements, at any depth, and each must be registered exactly once by the method that reads it", "anchors": ["src/armodel/cli/uuid_checker_cli.py: perform_uuid_duplicate_check", "src/armodel/parser/abstract_arxml_parser.py: readARObjectAttributes", "src/armodel/models/utils/uuid_mgr.py: UUIDMgr"]}
{"id": "C61", "title": "The registries of a document reflect the files", "statement": "After loading files, the document lists one system for each short name of a SYSTEM in the files, in the order of the names, namely the first; a composition looked up by its short name is the first with this name in the files; the root composition is that of the first SYSTEM that has one; getBehavior and getImplementation follow the last BEHAVIOR-REF in the files; converting between application and implementation data types follows the last DATA-TYPE-MAP in the files that mentions the type.", "quantifier": "every list of files, any nesting of packages, any number of systems, compositions, implementations and data type maps", "why_tests_cant": "registration happens in methods scattered over the reader, in the order in which a file is read; what wins depends on all earlier files", "anchors": ["src/armodel/parser/arxml_parser.py: readSystem, readCompositionSwComponentType, readSwcImplementation, readBswImplementation, readDataTypeMaps", "src/armodel/models/M2/AUTOSARTemplates/AutosarTopLevelStructure/__init__.py: AbstractAUTOSAR"]}
{"id": "C62", "title": "Ports only have communication specifications they may have", "statement": "Every communication specification of a port, whether it came from a file or from addProvidedComSpec and addRequiredComSpec, is of a class that kind of port may have and refers to a thing of the right kind (DEST); others are rejected with ValueError and leave the port as it was, and every specification that is allowed is accepted.", "quantifier": "every file in either mode, every port at any depth of the document, every sequence of calls", "why_tests_cant": "the check is made in the ports, the objects come from several reader methods shared between kinds of ports; every combination of port, class and DEST counts", "anchors": ["src/armodel/models/M2/AUTOSARTemplates/SWComponentTemplate/Components/__init__.py: _validateRPortComSpec, addProvidedComSpec, addRequiredComSpec, PRPortPrototype", "src/armodel/parser/arxml_parser.py: readProvidedComSpec, readRequiredComSpec"]}
{"id": "C63", "title": "A document merged from several files, or built with the API, is saved completely", "statement": "A document into which any number of files were loaded, or whose objects were created and filled through the API, is saved to one file from which the same document can be loaded; saving that again writes the same file. The file contains no text that was in none of the files.", "quantifier": "every list of files in either mode, every document whose objects have the attributes of their classes (whatever sequence of calls and loads made it)", "why_tests_cant": "merging fills attributes from several files in any combination, so the document need not be one that any single file yields; the number of files and the shapes are unbounded", "anchors": ["src/armodel/parser/arxml_parser.py: load", "src/armodel/writer/arxml_writer.py: save", "src/armodel/models/M2/AUTOSARTemplates/AutosarTopLevelStructure.py: AUTOSAR"]}
{"id": "C64", "title": "connector-update changes the connectors of the named compositions and nothing else", "statement": "connector-update writes a file from which every element of every package of the input can be loaded at its place, unchanged unless it is a composition the workbook names; such a composition has the connectors of its rows, connecting what the rows say, instead of its assembly and delegation connectors. The file can be loaded in the mode in which the input was loaded.", "quantifier": "every input file, every workbook, both modes", "why_tests_cant": "files with any number of nested packages and compositions, and any rows", "anchors": ["src/armodel/cli/connector_update_cli.py: main", "src/armodel/parser/connector_xlsx_parser.py: ConnectorXlsReader.update", "src/armodel/writer/arxml_writer.py: save"]}
{"id": "C65", "title": "connector2xlsx reports the connectors of the files", "statement": "connector2xlsx writes a workbook that has, for each composition of the input files in the order of names, a sheet with its assembly connectors and one with its delegation connectors.", "quantifier": "every set of input files, both modes", "why_tests_cant": "files with any number of nested packages, compositions and connectors", "anchors": ["src/armodel/cli/connector2xlsx_cli.py: main", "src/armodel/report/connector_xls_report.py: ConnectorXlsReport"]}
{"id": "C66", "title": "Numbers and truth values assigned by a program survive saving and loading", "statement": "A document in which a program assigned numbers and truth values (with setValue, not as texts) is saved; the file can be loaded; and every element that a path finds has in every attribute the number or truth value that was assigned.", "quantifier": "every document, every mixture of read and assigned values, every integer, float and truth value, both modes", "why_tests_cant": "all numbers, all attributes of all classes that are numbers or truth values, all nestings", "anchors": ["src/armodel/models/M2/AUTOSARTemplates/GenericStructure/GeneralTemplateClasses/PrimitiveTypes.py: ARNumerical, ARFloat, ARPositiveInteger, ARBoolean", "src/armodel/writer/abstract_arxml_writer.py: setChildElementOptionalNumericalValue, setChildElementOptionalFloatValue, setChildElementOptionalBooleanValue", "src/armodel/writer/arxml_writer.py: save", "src/armodel/parser/arxml_parser.py: load"]}
{"id": "C67", "title": "Paths find the same elements after saving and loading", "statement": "When a document is saved and loaded again, every path that finds no element in the one finds none in the other, and every path that finds an element finds the same element, with the same contents.", "quantifier": "every document that was loaded, merged or built, every path, both modes", "why_tests_cant": "all documents and all paths; saving sorts packages and elements", "anchors": ["src/armodel/models/M2/AUTOSARTemplates/AutosarTopLevelStructure/__init__.py: AUTOSAR.find", "src/armodel/writer/arxml_writer.py: save", "src/armodel/parser/arxml_parser.py: load"]}
{"id": "C68", "title": "Periods and intervals in milliseconds", "statement": "A period or minimum start interval that a file gives as a number of seconds that is k milliseconds is reported by periodMs and minimumStartIntervalMs as k; without a period they report None.", "quantifier": "every number of milliseconds, every text for it, every floating point arithmetic that rounds to the nearest double", "why_tests_cant": "all decimal texts and all 2^52 numbers of milliseconds; rounding differs from number to number", "anchors": ["src/armodel/models/M2/AUTOSARTemplates/SWComponentTemplate/SwcInternalBehavior/RTEEvents.py: TimingEvent.periodMs", "src/armodel/models/M2/AUTOSARTemplates/BswModuleTemplate/BswBehavior/__init__.py: BswTimingEvent.periodMs", "src/armodel/models/M2/AUTOSARTemplates/CommonStructure/InternalBehavior.py: ExecutableEntity.minimumStartIntervalMs"]}
{"id": "C69", "title": "The dump shows the whole document", "statement": "arxml-dump comes to its end for every document that can be loaded, and prints a line for every package, client-server interface, BSW module, internal behavior and event, with the indentation of its nesting, and no other lines.", "quantifier": "every list of files that can be loaded, packages at any depth", "why_tests_cant": "all files, arbitrary nesting", "anchors": ["src/armodel/cli/arxml_dump_cli.py: cli_main, show_ar_package, show_client_server_interface, show_bsw_module_description, show_bsw_internal_behavior"]}
{"id": "C70", "title": "A save that fails or is interrupted", "statement": "If save raises an exception, no file has changed. If the program is interrupted at any point of save, no other file has changed, the file is never loaded as a document that is neither the old nor the new one, and one of the two can still be loaded.", "quantifier": "every document, every disk, every crash point, every way the text is handed over in pieces", "why_tests_cant": "all crash points of all files; all ways to cut a file", "anchors": ["src/armodel/writer/arxml_writer.py: save", "src/armodel/writer/abstract_arxml_writer.py: saveToFile", "src/armodel/parser/arxml_parser.py: load"]}
{"id": "C71", "title": "Abstract classes are never instantiated, all others can be", "statement": "Constructing an object of a class declared abstract raises TypeError; every other class can be constructed, with parent and short name if it has a short name and without arguments otherwise. A new object is blank. No constructor call in the library raises, and no object of a loaded, merged or built document is of an abstract class.", "quantifier": "every class, every number of arguments, every constructor call of the library, every document and every object in it", "why_tests_cant": "a thousand classes with the constructors of all their ancestors; all documents", "anchors": ["src/armodel/models/**: __init__", "src/armodel/parser/arxml_parser.py", "src/armodel/models/M2/AUTOSARTemplates/BswModuleTemplate/BswBehavior/BswInterruptEvent.py: BswInterruptEvent.__init__"]}
{"id": "C72", "title": "Renamed elements are found under their new name", "statement": "After the short name of an element of a package or of any other element collection is changed, the element is found under the new name and not under the old one, and no second element of the class with the same name can be created.", "quantifier": "every history of adding, creating, removing and renaming, all names and classes", "why_tests_cant": "histories of any length in which any element may be renamed at any time", "anchors": ["src/armodel/models/M2/AUTOSARTemplates/GenericStructure/GeneralTemplateClasses/Identifiable.py: Referrable.shortName, CollectableElement"]}
{"id": "C73", "title": "There is one document per program", "statement": "All calls of AUTOSAR.getInstance() return the same complete document, whichever threads make them and however they are scheduled, and constructing a second AUTOSAR is refused.", "quantifier": "every number of threads, every schedule, every sequence of calls", "why_tests_cant": "thread switches between any two accesses; a test sees one schedule", "anchors": ["src/armodel/models/M2/AUTOSARTemplates/AutosarTopLevelStructure/__init__.py: AUTOSAR.getInstance, AUTOSAR.__init__"]}
{"id": "C74", "title": "Convenience methods on lists give what they hold", "statement": "Creating a query or a pin group by name returns the object of the list that has this name now, or a new one if there is none; memory sections and queries are found under their current names; a key slot content is created once per name; the values of a value list and the artifact descriptors of a category can be read back.", "quantifier": "every list, every history of creations and renamings, all names and categories", "why_tests_cant": "lists of any length with names changed at any time; any number of values, any mixture of categories", "anchors": ["src/armodel/models/M2/AUTOSARTemplates/ECUCParameterDefTemplate.py: createEcucQuery, getEcucQuery", "src/armodel/models/M2/AUTOSARTemplates/EcuResourceTemplate/__init__.py: HwElement.createHwPinGroup", "src/armodel/models/M2/AUTOSARTemplates/CommonStructure/ResourceConsumption/__init__.py: getMemorySection", "src/armodel/models/M2/AUTOSARTemplates/AdaptivePlatform/PlatformModuleDeployment/CryptoDeployment/CryptoKeySlot.py: createKeySlotContent", "src/armodel/models/M2/MSR/DataDictionary/DataDefProperties.py: ValueList.getVfs", "src/armodel/models/M2/AUTOSARTemplates/CommonStructure/Implementation.py: Code.getArtifactDescriptors"]}
{"id": "C75", "title": "Objects do not depend on each other", "statement": "A call on one model object changes nothing that another object shows: what the getters of an object return is determined by its class and the calls made on this object, in their order.", "quantifier": "every number of objects of every class, every sequence of constructor, setter and adder calls with any arguments", "why_tests_cant": "histories of any length on any number of objects; lists have identities that any program may pass around", "anchors": ["src/armodel/models/M2/**: constructors, setX, addX, getX of all classes"]}
{"id": "C76", "title": "The order of different child elements does not matter", "statement": "Exchanging children with different tags of an element of a file, or attributes, changes nothing about the document that is loaded or the exception that is raised, in both modes, also when loading into a document with contents. Only in elements that hold a list of members of different kinds, or one of several alternatives, the order is the order of the document (the first alternative is taken).", "quantifier": "every file, any number of exchanges at any depth, every document loaded into", "why_tests_cant": "all permutations of the children of all elements of all files", "anchors": ["src/armodel/parser/abstract_arxml_parser.py: find, findall, getChildElement*", "src/armodel/parser/arxml_parser.py: load and all read*/get* methods"]}
{"id": "C77", "title": "The command-line tools tell whether they failed and change only their output", "statement": "A tool ends with exit status 0 exactly if its work was done without an exception. It changes no file but its output and its log file. arxml-format leaves the complete new content in the output file, or what was there before; input and output may be the same file.", "quantifier": "every tool, all options, every set of files and every identification of paths with files, every exception", "why_tests_cant": "all states of the file system and all failures; paths may denote the same file in any way", "anchors": ["src/armodel/cli/*.py: main, perform_format, perform_uuid_duplicate_check"]}
{"id": "C78", "title": "Layout and unknown attributes do not matter", "statement": "Loading a file does not depend on its indentation, nor on any text in elements that only contain elements, nor on attributes the reader does not know: two files that differ in nothing else give the same document or the same exception, also when they are loaded into a document that has contents.", "quantifier": "every tree, every text of every element whose text no method reads, every set of unknown attributes, both modes, every document loaded into", "why_tests_cant": "all trees and all places in them; over 700 reader methods, each of which could look at a text or an attribute", "anchors": ["src/armodel/parser/arxml_parser.py", "src/armodel/parser/abstract_arxml_parser.py: readElementOptionalAttrib, getChildElementOptionalLiteral"]}
{"id": "C79", "title": "Exactly the well-formed files are read", "statement": "A file is read if and only if it is well-formed: there is one root element, every start tag has the end tag of its name, no element has an attribute twice, every reference stands for a character, every character is one XML allows, and comments, processing instructions and CDATA sections are complete; what is read is the tree the grammar gives, and there is only one.  Everything else is rejected with an exception.", "quantifier": "every file content without a document type declaration", "why_tests_cant": "all texts, of any length and depth; acceptance of one malformed file would be enough to lose data silently", "anchors": ["src/armodel/parser/arxml_parser.py: ARXMLParser.load (ET.parse)", "src/armodel/writer/abstract_arxml_writer.py: AbstractARXMLWriter.saveToFile (minidom.parseString)"]}
{"id": "C80", "title": "Prefixes do not matter, only the namespaces they stand for", "statement": "A file is read if and only if it is well-formed and every prefix it uses is declared, and the reader gets the names the prefixes stand for: the innermost declaration counts, the default namespace is for elements but not for attributes, and no attribute comes twice under two prefixes.  Two files whose names stand for the same load as the same document; in particular a file with any prefix for the AUTOSAR namespace loads like the one without.  Every saved file declares what it uses, so it is read as the names in it say.", "quantifier": "every file content, every choice of prefixes and nesting of declarations, every document that is saved", "why_tests_cant": "all files and all prefixes; declarations can be nested to any depth", "anchors": ["src/armodel/parser/arxml_parser.py: ARXMLParser.load (ET.parse)", "src/armodel/parser/abstract_arxml_parser.py: AbstractARXMLParser.find, findall, getTagName, getAUTOSARInfo", "src/armodel/writer/arxml_writer.py: ARXMLWriter.save", "src/armodel/writer/abstract_arxml_writer.py: AbstractARXMLWriter.saveToFile"]}
{"id": "C81", "title": "A file of another schema is not taken for an empty document", "statement": "Loading a file that is not an AUTOSAR 4 file fails in strict mode; it does not result in a document without the content of the file.", "quantifier": "every file content, in strict mode", "why_tests_cant": "all files with all namespaces", "anchors": ["src/armodel/parser/arxml_parser.py: ARXMLParser.load", "src/armodel/parser/abstract_arxml_parser.py: AbstractARXMLParser.getPureTagName, find, findall"]}
{"id": "C82", "title": "What becomes of an element depends on its definitions alone", "statement": "A package, or an element of it, may be written several times, in several files or in one. What loading makes of it depends only on what was there under its path before and on its definitions in their order: not on what else is in the files, nor on how the definitions are distributed over files or over packages of the same name in a file. What is not defined in the files stays as it was, and a path leads somewhere afterwards exactly if it did before or there is a definition for it.", "quantifier": "every document, every list of files in either mode, every path", "why_tests_cant": "all contents of files around an element, all distributions of definitions over files and packages, any depth", "anchors": ["src/armodel/parser/arxml_parser.py: ARXMLParser.load, readARPackages, readARPackageElements", "src/armodel/models/M2/AUTOSARTemplates/GenericStructure/GeneralTemplateClasses/ARPackage.py: ARPackage.createARPackage and the other create methods"]}
{"id": "C83", "title": "How packages are distributed over files does not matter", "statement": "Loading several files one after the other gives the same document as loading one file with all their contents, members, their order and all attributes included: files may be divided between packages, and a package may be divided over several files (or written several times in one).", "quantifier": "every file, every division of it into files and of its packages at any depth, every document loaded into, either mode", "why_tests_cant": "all contents, all ways to divide them, any number of parts and any depth", "anchors": ["src/armodel/parser/arxml_parser.py: ARXMLParser.load, readARPackages, readARPackage, readARPackageElements, readReferenceBases", "src/armodel/models/M2/AUTOSARTemplates/GenericStructure/GeneralTemplateClasses/ARPackage.py: ARPackage.createARPackage and the other create methods"]}
{"id": "C84", "title": "Enumerations accept exactly their values", "statement": "An object of an enumeration class takes for valid exactly the values of the constants of its class, whatever was assigned to it before; different constants have different values; a value that is not valid cannot be assigned, and a value read from a file is valid if it is one of the values of the standard.", "quantifier": "every enumeration class, every text, every history of assignments", "why_tests_cant": "all texts and histories, and all 100 classes", "anchors": ["src/armodel/models/M2/AUTOSARTemplates/GenericStructure/GeneralTemplateClasses/PrimitiveTypes.py: AREnum.validateEnumValue, AREnum.setEnumValues, ARLiteral.value, ARType.setValue", "src/armodel/parser/abstract_arxml_parser.py: AbstractARXMLParser.getChildLimitElement"]}
{"id": "C85", "title": "What a program builds survives saving and loading", "statement": "A program builds a document with any sequence of calls of create, set and add methods, on any objects of the document, passing values of the kinds the attributes have, and loading files or clearing the document in between. Every such document is well formed; if no mandatory attribute is missing it can be saved, the file can be loaded, and loading yields the document that the program built. The classes have methods for the attributes that are read.", "quantifier": "every sequence of calls at any place of the document, every value, every file loaded in between, both modes", "why_tests_cant": "unboundedly many sequences of calls over about 600 kinds of objects and 6000 attributes", "anchors": ["src/armodel/models/M2/AUTOSARTemplates/GenericStructure/GeneralTemplateClasses/ARPackage.py: ARPackage.create...", "src/armodel/models/M2/**: set..., add..., create...", "src/armodel/writer/arxml_writer.py: ARXMLWriter.save", "src/armodel/parser/arxml_parser.py: ARXMLParser.load"]}
{"id": "C86", "title": "Every attribute that can be set is saved and loaded", "statement": "Whatever attribute of whatever object of a document is set or added to with a method of its class, the value is written to the file when the document is saved, and is there again after the file was loaded.", "quantifier": "every class of objects in documents, every attribute with a set or add method, every value, every document and file, both modes", "why_tests_cant": "some 6000 attributes of 600 kinds of objects, at any place of any document", "anchors": ["src/armodel/parser/arxml_parser.py: ARXMLParser.load, read...", "src/armodel/writer/arxml_writer.py: ARXMLWriter.save, write...", "src/armodel/models/M2/**: set..., add..."]}
{"id": "C87", "title": "Attributes show the elements they are named after", "statement": "After a file was loaded, each value of each attribute of each object is the content of an element (or of an XML attribute) that is named after the attribute and lies below the element of the object; attributes for which there is nothing in the file are empty.", "quantifier": "every file that can be loaded, every object of the document at any depth, every attribute, both modes", "why_tests_cant": "some 4800 places of the reader, in any nesting; saving and loading again does not show a wrong name if reader and writer agree on it", "anchors": ["src/armodel/parser/arxml_parser.py: ARXMLParser.load, read..., get...", "src/armodel/parser/abstract_arxml_parser.py: getChildElement..."]}
{"id": "C88", "title": "Values are in the order of the file", "statement": "After a file was loaded, the values of each attribute that holds several (arguments of an operation, elements of a record, references, ...) are in the order in which their elements are in the file, and each is made of an element of its own.", "quantifier": "every file that can be loaded, every object of the document at any depth, every attribute, both modes", "why_tests_cant": "any number of values, in any arrangement with other elements, in hundreds of attributes", "anchors": ["src/armodel/parser/arxml_parser.py: ARXMLParser.load, read..., get...", "src/armodel/parser/abstract_arxml_parser.py: find, findall, getChildElement..."]}
{"id": "C89", "title": "Lists are loaded completely, single values are single", "statement": "If an attribute of a class is a list in new objects, then loading a file puts what each of the elements at its place contains into the list, however many there are; if it is None in new objects, it has at most one value after loading.", "quantifier": "every file that can be loaded, every object of the document at any depth, every attribute, any number of elements, both modes", "why_tests_cant": "any number of elements for each of more than 1200 lists; test files have one element in most of them", "anchors": ["src/armodel/parser/arxml_parser.py: ARXMLParser.load, read..., get...", "src/armodel/models/M2/**: __init__"]}
{"id": "C90", "title": "Two documents give the same file exactly if they are the same but for the order of sorted objects", "statement": "The order in which packages (and runnables, events, ports of connectors and the other objects the writer sorts by name) were added does not influence the saved file. Conversely, if two documents built with the API are saved as the same file, then every path finds objects of the same class with the same values in both: changing a name, a class or a value changes the file.", "quantifier": "all documents and all permutations at any depth (first part); all pairs of documents built by any sequence of calls and loads (second part); both modes", "why_tests_cant": "quantifies over all pairs of documents; a test compares the files of a few", "anchors": ["src/armodel/writer/arxml_writer.py: ARXMLWriter.save, sorted(..., key=lambda ...: ...short_name)", "src/armodel/writer/arxml_writer.py: write..."]}
{"id": "C91", "title": "Whatever was loaded or built can be saved", "statement": "After any sequence of calls and loads, however incomplete the document is, save() with warnings writes it: no value of any attribute makes the writer fail. An exception is raised only for a few kinds of objects (with warnings: hardware attribute literals, and mode switch points without mode group; without warnings also objects the writer reports as not implemented), and it is always one of AttributeError and NotImplementedError.", "quantifier": "all documents that any sequence of API calls and loads can make, complete or not; both modes", "why_tests_cant": "every class, attribute and combination of missing attributes must be tried; a test saves a few complete documents", "anchors": ["src/armodel/writer/arxml_writer.py: ARXMLWriter.save, write..., set...", "src/armodel/writer/abstract_arxml_writer.py: setChildElement..., notImplemented"]}
{"id": "C92", "title": "Which files can be loaded", "statement": "A file is loaded if and only if every element that is read can be read by itself: each text read as a number, boolean or revision label is one, references have the required DEST, what the reader insists on is there, and in strict mode there is no unsupported child and the root is AUTOSAR. Nothing else about the file - its size, depth, or what surrounds an element - makes load() fail, and one faulty element is enough to make it fail. Otherwise load() raises ValueError, AttributeError, NotImplementedError (strict mode only) or UnboundLocalError (with warnings only); it always ends.", "quantifier": "all files (XML trees), both modes", "why_tests_cant": "the set of files is infinite and any of several hundred reader methods may reject an element at any depth; a test loads a few files", "anchors": ["src/armodel/parser/arxml_parser.py: ARXMLParser.load, read..., get...", "src/armodel/parser/abstract_arxml_parser.py: getChildElementOptional..., notImplemented, raiseError"]}
{"id": "C93", "title": "Which documents can be saved", "statement": "A document is saved if and only if every object that is written can be written by itself: its values have the methods the writer calls, every object it contains is of a class the writer has a branch for (or warnings are on), and no statement that raises is reached. Nothing else about the document - its size, depth, or what surrounds an object - makes save() fail, and one faulty object is enough to make it fail. What is saved without warnings is saved with warnings as the same file.", "quantifier": "all documents, of whatever objects; both modes", "why_tests_cant": "the set of documents is infinite and any of several hundred writer methods may fail on an object at any depth; a test saves a few documents", "anchors": ["src/armodel/writer/arxml_writer.py: ARXMLWriter.save, write..., set...", "src/armodel/writer/abstract_arxml_writer.py: setChildElement..., notImplemented"]}
{"id": "C94", "title": "A change of one object changes only its place in the file", "statement": "If an object in a document is changed (an attribute is set, added to, cleared, an object is created in it or removed from it), and the document is saved before and after, the two files are the same but for the elements that are written for this object: everything around them keeps its tags, attributes, texts and order.", "quantifier": "all documents, all objects in them at any depth, all changes that keep class and short name; in particular every call of a method on an object inside a document; both modes", "why_tests_cant": "documents and changes are unbounded, and a dependence on an object far away (a condition, the order of siblings) shows only for the right combination", "anchors": ["src/armodel/writer/arxml_writer.py: ARXMLWriter.save, write..., set...", "src/armodel/models/M2/**: set..., add..., create..., removeElement"]}
{"id": "C95", "title": "A change of one element of a file changes only the objects made of it", "statement": "If an element of a file is exchanged for another one with the same tag, and both files are loaded, the two documents are the same but for the objects that are made of this element: everything around them keeps its classes, values and order, and the objects in the other places are what the same method makes of the other element.", "quantifier": "all files, all elements in them at any depth of which the reader makes objects (692 kinds; eleven kinds of which something is read directly in another place are left out), all elements they are exchanged for, in one place or several; both modes", "why_tests_cant": "files and changes are unbounded, and a dependence on an element far away (a path that leads through it, a test for its presence) shows only for the right combination", "anchors": ["src/armodel/parser/arxml_parser.py: ARXMLParser.load, read..., get...", "src/armodel/parser/abstract_arxml_parser.py: find, findall, getChildElement..."]}
{"id": "C96", "title": "An element added to a file adds only the objects made of it", "statement": "If an element is added to a file, and both files are loaded, the second document is the first one with objects added that are made of this element: all other objects keep their classes, values and order.  Likewise, removing an element removes only the objects that are made of it.", "quantifier": "all files, all elements of which the reader makes objects in a loop (452 kinds; nine kinds that are read in another way elsewhere are left out), added in one place or several at any depth, but not directly in the 15 kinds of elements of which only one child is read; both modes", "why_tests_cant": "files and places are unbounded, and an effect of a new element on another one (the first of several, a test for presence, the last value kept) shows only for the right combination", "anchors": ["src/armodel/parser/arxml_parser.py: ARXMLParser.load, read..., get...", "src/armodel/parser/abstract_arxml_parser.py: find, findall"]}
{"id": "C97", "title": "A change of one element of a file that is loaded and saved changes only what is written for it", "statement": "If an element of a file is exchanged for another one with the same tag and short name, and both files are loaded and saved, the saved files are the same but for what is written for the objects that are made of this element: a small edit of a file is a small edit of the file that a tool writes.", "quantifier": "all files, all elements in them at any depth of which the reader makes objects (692 kinds; eleven kinds of which something is read directly in another place are left out), all elements with the same tag and short name they are exchanged for; both modes", "why_tests_cant": "files and changes are unbounded, and reader and writer could let an element far away depend on the change (tests for presence, conditions of the writer, order of siblings)", "anchors": ["src/armodel/parser/arxml_parser.py: ARXMLParser.load", "src/armodel/writer/arxml_writer.py: ARXMLWriter.save"]}
{"id": "C98", "title": "An element can be removed from a file", "statement": "If a file can be loaded, it can still be loaded after an element of a list is removed from it, and only the objects made of this element are missing in the document.  So what is not needed can be cut from a file without making it unreadable.", "quantifier": "all files, all elements of which the reader makes objects in a loop (452 kinds; nine kinds that are read in another way elsewhere are left out), removed in one place or several at any depth, but not directly in the 15 kinds of elements of which only one child is read; both modes", "why_tests_cant": "files are unbounded, and a method of the reader anywhere could need the element (required children, lists that must not be empty, tests for presence)", "anchors": ["src/armodel/parser/arxml_parser.py: ARXMLParser.load"]}
{"id": "C99", "title": "What is removed from a file is missing in the file that is saved, and nothing else", "statement": "If a file can be loaded and saved, it can be loaded and saved after an element of a list is removed from it, and the saved file is the one saved before with elements left out: nothing new is in it and all that is in it has the same text, attributes and order.  Likewise, an element added to a file only adds elements to the saved file.", "quantifier": "all files, all elements of which the reader makes objects in a loop (452 kinds; nine kinds that are read in another way elsewhere, and two that change the place others are written to, are left out), removed in one place or several at any depth, but not directly in the 15 kinds of elements of which only one child is read; both modes", "why_tests_cant": "files are unbounded, and reader and writer could do something else anywhere if a list is empty, longer or in another order (conditions of the writer, sorting, nesting)", "anchors": ["src/armodel/parser/arxml_parser.py: ARXMLParser.load", "src/armodel/writer/arxml_writer.py: ARXMLWriter.save"]}
{"id": "C100", "title": "A change of texts of a file changes only the values that are read from them", "statement": "If texts of elements of a file are replaced by other texts that are not blank, and both files can be loaded, the documents have the same objects in the same order with the same attributes: only values read from the elements with the replaced texts differ.  The text of an element that holds other elements is not read at all: whatever is written between these elements, such as line breaks and indentation, loading has the same outcome.", "quantifier": "all files, all elements at any depth and any number of them, all old and new texts, warnings or errors; for the second part all elements that hold elements but 32 kinds whose own text is read as well", "why_tests_cant": "files and texts are unbounded, and any of the methods of the reader could decide by a text what objects it makes or where it looks for elements", "anchors": ["src/armodel/parser/arxml_parser.py: ARXMLParser.load", "src/armodel/parser/abstract_arxml_parser.py: AbstractARXMLParser.getChildElementOptionalLiteral"]}
