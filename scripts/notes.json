{
 "C11": {
  "note": "False of the code: the target of the command line loses to CARGO_BUILD_TARGET-style settings because merge keeps the other side first (C11_cli_target_loses). Proved: which side wins for each setting."
 },
 "C31": {
  "note": "Proved for 21 enumerations. False for five (refuted by witnesses); for these the exact set of values that survive is proved."
 },
 "C32": {
  "note": "False: the regular expression is anchored wrongly (C32_hash_refuted). Proved: the exact set of accepted texts."
 },
 "C33": {
  "note": "False: values above 1 and NaN pass (C33_confidence_refuted). Proved: the exact set of accepted values."
 },
 "C36": {
  "note": "Proved for classifications and score methods. False for aggregate types (C36_aggregate_refuted), where the exact behaviour is proved."
 },
 "C38": {
  "note": "False: some parts are never validated (C38_reaches_everything_refuted, C38_ignores_*). Proved: a document passes exactly if all elements that are visited satisfy their rules."
 },
 "C39": {
  "note": "Proved for the conversion to the structs of the specification modules and back (C39_convert_partial), and for writing and reading, for all documents whose enumeration values are read back from their names (Bom.Named); C75_survives_iff shows that this condition is exact. False for others: C39_fails_algorithm, C39_fails_name."
 },
 "C41": {
  "note": "False in general; what is lost or unreadable is shown by witnesses. Proved for all documents that avoid these parts (Bom.XmlOk); C78_exact shows that this condition is exact."
 },
 "C42": {
  "note": "False in general (C42_fails). Proved for content in which no element that the reader ignores contains an element with one of the reader's own names. Without that condition: C42_bounded_values, _lists, _elements, _dropping: every reader consumes a part of its element and never anything behind it, and returns the same with anything else behind what it consumed; C42_document: of a document that can be read exactly the root element is consumed. For both, signatures must have no text of their own; C42_beyond shows that the reader of signatures goes beyond its element otherwise."
 },
 "C43": {
  "note": "C43_anywhere_partial: foreign elements of whatever content, at any number of places and at any depth, change neither the value read nor the error, for all tame documents (tame as in C42); C43_conforming_partial: a conforming document is read as the same with and without them. The foreign elements must be in elements that are read leniently (a list of types, Spec.lenient) and must have no local name of the format. Both conditions are needed: C43_closed (in other elements the document becomes unreadable), C43_namespace (an element of another namespace with a name of the format is taken for one of the format). C43_document_partial, C43_elements_partial and C43_lists_partial say the same for each reader, for all names that the reader does not know."
 },
 "C44": {
  "note": "False in general; what is lost is shown by witnesses. Proved for all documents that avoid these parts (Bom.JsonOk); C77 shows that no other document comes back."
 },
 "C53": {
  "note": "Proved for component types. False for external reference types and aggregate types (refuted by witnesses), where the exact sets are proved."
 },
 "C55": {
  "note": "Proved for media types. False for CPEs, whose regular expression is not anchored (C55_cpe_refuted); the exact set is proved."
 },
 "C57": {
  "note": "False for packages with a URL that starts with urn:cdx (C57_bom_link_refuted). C57_exact and C57_written_exact say exactly which SBOMs are valid in which version: those in which every well-formed URL of a described package that starts with urn:cdx is a BOM-Link and the version is 1.5."
 },
 "C61": {
  "note": "False in version 1.5 (C61_fails, C61_fails_attachment). Proved for versions 1.3 and 1.4; for 1.5 it is proved that nothing else than these two kinds of start tags has an attribute twice."
 },
 "C63": {
  "note": "False for texts with outer white space and for empty license files (C63_description_changed, C63_empty_license_file). Proved for all workspaces without them. C63_exact: an SBOM is read back unchanged exactly if the texts in it that come from manifests and options have no outer white space and no named license and no license text in it is empty."
 },
 "C64": {
  "note": "Proved for release builds. False for debug builds if a URL of a package starts with urn:cdx (C64_debug_panics). C64_debug_exact: the debug build writes the same exactly if no well-formed URL of a described package starts with urn:cdx, and panics otherwise."
 },
 "C66": {
  "note": "Partial: proved for every BOM whose elements are as the schema asks (Spec/Conforms.lean, a condition on each element on its own). The full statement is false: C66_rejected lists thirty BOMs that pass validation but are written as documents the schema rejects (members with wrong names such as bomRef and responses, values of the wrong shape, values the version does not have), each beside a BOM that lacks only the flaw and conforms."
 },
 "C65": {
  "note": "Under FormatsAgree (the libraries accept and print what the formats of the schema ask) and PlainIds (package ids are not empty, each dependency is listed once), which Spec/SchemaEnv.lean states; C65_once_needed shows that the second is needed."
 },
 "C68": {
  "note": "Proved for all documents except those with a number too large for f32, the external reference type codified-infrastructure, a misspelled aggregate, or an unknown identity field (Json.Settled); C68_codified_lost, C68_aggregate_lost, C68_field_lost and C68_infinity_unreadable show that the property fails for each of these. C68_exact: without this condition, the document comes back exactly if it satisfies the condition of C77."
 },
 "C73": {
  "note": "Proved for all documents that avoid what Spec/Readable.lean lists, have no member twice and are not nested deeper than serde_json allows; C73_unreadable shows for each item of the list that a conforming document with it is rejected. Numbers that the model of JSON has no value for (Json.other) are excluded as a limit of the model."
 },
 "C74": {
  "note": "C74_kept_partial: documents that avoid what Readable, Settled and Lossless list come out as the same JSON value; the schema of 1.3 leaves every object open, so documents of 1.3 must have no other members than it names (StrictlyConforms). C74_lost and C74_changed: documents showing that each item of the lists is needed."
 },
 "C76": {
  "note": "Proved for all documents whose texts have no white space at their ends (character data never has, CDATA sections may) and that have none of the parts that XML does not keep (Bom.XmlKept, type by type). C76_blanks_lost, C76_author_lost, C76_codified_lost, C76_licensing_lost, C76_occurrences_lost and C76_task_unreadable show that the property fails for such documents; the theorems C41_* show it for further parts. C76_exact: without these conditions, the document comes back exactly if it satisfies the condition of C78."
 },
 "C79": {
  "note": "C79_report_places_partial: for every document the exact set of places, with one exception that C79_report_places_fails shows: the check for the date of the last update of a vulnerability analysis looks at the date of first issue, so a wrong date of first issue is reported at both places. C79_report_places_exact_partial: without a wrong date of first issue the places are exactly those of the violations. C79_element_places_partial: the same for every kind of element on its own."
 },
 "C80": {
  "note": "C80_parse is unconditional. C80_parse_with_partial: the readers for a version take the first of alternative members, so their order must be kept; C80_order_matters shows a license with both name and id whose order decides what is read."
 },
 "C81": {
  "note": "False in general: C81_disagree shows a document with a repeated member, which only parse_from_json accepts, and a license with name before id, of which the readers take different members. C81_agree_partial: they agree if no member is repeated and alternative members are in alphabetical order. C81_written: they agree on everything that is written."
 },
 "C82": {
  "note": "False in general: C82_fails shows that a member beside `license` in a list of licenses makes the document unreadable, because it is an externally tagged enumeration. Proved for all other objects. The depth of values that are ignored is not limited in the model; serde_json stops at depth 128."
 },
 "C83": {
  "note": "False in general: C83_fails shows documents of version 1.5 (and 1.4 for signatures, 1.3 and 1.4 for the identifier of a contact) whose XML differs from the format. C83_written gives the exact vocabulary and order of everything written, C83_same compares it with the format, C83_format_partial covers all documents without the listed child elements and attributes, C83_generated everything that cargo cyclonedx writes. The table of the format is written by hand from the published format, with one entry for each element name; scripts/elements.py checks it against the valid XML documents of the repository. How often an element may occur is not part of the table."
 },
 "C84": {
  "note": "Each theorem is an equivalence. C84_names_refuted: Service::new (and OrganizationalEntity::new) keep line breaks in names that Component::new and the others replace, so they can build elements that validation rejects. C84_uri_reference_refuted: a text that Uri::try_from accepts may still be rejected as the address of an external reference, as everything that begins with urn:cdx is taken for a BOM-Link. Purl::new, whose outcome is up to the purl crate, is covered by C50."
 },
 "C85": {
  "note": "False in general: C85_unsupported gives conforming documents that cannot be read, one for each condition of Supported (processing instructions, texts mixed with CDATA sections, negative and large numbers, empty license names and texts, attachments in CDATA sections, dependencies nested three deep, parameters of inputs, datasets that are references). C85_conforming_partial and C85_unordered_partial cover all other conforming documents, up to the depth that the model allows for nesting. Assumed: f32::from_str accepts every decimal number. The table of the format is written by hand; scripts/xsd/check.py compares it with the documents of the repository."
 },
 "C86": {
  "note": "C86_generated covers the files of cargo cyclonedx in full. For documents built with the library it is false in general: C86_fails gives a document for each case of Departs that can be written but is then not valid, although most of them pass validation. C86_written_partial says that every element is valid or is one of these cases. Assumed for it: finite f32 values are displayed as decimal numbers (DecimalsShown). Allowed values of texts and uniqueness of identifiers are not part of the table of the schema."
 },
 "C87": {
  "note": "False for documents that use a prefix and declare no default namespace: C87_default_namespace shows that none of them can be read, since the root element is recognised by the default namespace. Everything else is proved: C87_same_partial for documents in correspondence, with the corollaries C87_unknown_attributes, C87_attribute_order and C87_prefix_partial. Attributes are identified by their local names, as in the code; names of elements must correspond one to one, also as they are displayed."
 },
 "C88": {
  "note": "Proved for all documents of the format (child elements in any order, nothing that Supported excludes): exchanging neighbouring child elements whose names belong to different parts of the sequence, any number of times and at any depth, does not change the result; and every such document can be brought into the order of the schema this way. Partial because documents that the library rejects are not covered: there the errors depend on the order. C88_lists_keep_order shows that elements of one list must not be exchanged."
 },
 "C89": {
  "note": "C89_xml_to_json and C89_json_to_xml: exactly the documents that satisfy Bom.JsonOk and Bom.XmlOk are kept, for all events and all JSON values that are read. C89_there_and_back, C89_back_to_xml: the way back. C89_json_keeps_more: JSON keeps every BOM that XML keeps, unless it has an infinite score, a chain of signatures or (1.5) data flows; each of the three is shown to be lost in JSON and kept in XML."
 },
 "C90": {
  "note": "Spec/Tree.lean lists the fields of every structure under their names and says which member of JSON each one is; Spec/TreeXml.lean is a table of the elements and attributes of XML. C90_json, C90_xml: what is written is exactly this. C90_json_read, C90_xml_read: what is at these places is read into these fields, for all documents that C77 and C78 say are kept. C90_tree: the tree has all fields. C90_misnamed: the names in JSON that are not those of the format are exactly ten. C90_clash: in XML only attachments and data flows write a field under the name of another one."
 },
 "C91": {
  "note": "Spec/Dated.lean lists the fields that came with versions 1.4 and 1.5, structure by structure. C91_json, C91_json_with, C91_xml: none of those later than the version is there in any part of what is read, for every input. C91_nothing_dropped_*: so a later version drops nothing."
 },
 "C77": {
  "note": "C77_exact and its forms for parts; C77_numbers: the finite 32-bit numbers, which the condition asks for, are exactly those that have a value."
 },
 "C92": {
  "note": "Spec/Args.lean has the table of options, the spellings, and what options mean. C92_exact: accepted exactly then, with exactly these settings. C92_order, C92_every, C92_unknown: order, all settings, unknown options. C92_refused, C92_accepted: what the run does. C92_logging. clap is modelled by what its derive makes of cli.rs; help, version and RUST_LOG are left out."
 },
 "C93": {
  "note": "Spec/Versions.lean has the license rule of 1.5 and the list of what came with 1.5. C93_later, C93_earlier: exact conditions in both directions. C93_same: 1.3 and 1.4. C93_needed: both conditions are needed."
 },
 "C94": {
  "note": "The code violates the full statement in version 1.3 (C94_refuted): vulnerabilities are left out there, but dependencies and compositions that refer to one are kept. C94_exact: this is the only way. C94_json_partial, C94_xml_partial: proved under this condition; C94_later: none needed from 1.4 on; C94_read_json, C94_read_xml, C94_read_same: none needed for documents that were read, in any version, and in a later version they stay valid exactly if the rule of 1.5 for lists of licenses holds."
 },
 "C95": {
  "note": "C95_down_json, C95_down_xml: older versions, complete. C95_up_json: newer versions, JSON, complete. C95_up_xml_partial: newer versions, XML; the code violates this for an empty list of tools, which a 1.5 file does not keep (C95_up_xml_refuted)."
 },
 "C96": {
  "note": "Complete for finite sequences of events. The end of the events is an error that the XML library reports. The error `depth` of the model stands for the end of the stack."
 },
 "C97": {
  "note": "Complete for JSON, exact in both directions. XML documents are read only as their own version (C62)."
 },
 "C98": {
  "note": "Complete: JSON values and XML events; that a BOM was read from a document of a version is enough for its condition (C91)."
 },
 "C99": {
  "note": "False in general: C99_collision, an enumeration value given as unknown with the name of a known one. Proved for all BOMs that the formats keep (the exact conditions of C77 and C78), and without restriction for the JSON files that the tool generates (C99_generated)."
 },
 "C100": {
  "note": "Complete; for --override-filename the name must be accepted, since a name with a path separator is an error (C100_override). The surroundings (cargo, clock, UUIDs) are the same in both runs; the metadata that cargo gives must be consistent (MetadataOk) for the statement about files."
 },
 "C101": {
  "note": "Whole generation runs are compared; the SBOMs without licenses are defined in Spec/Options.lean. For the options for dependencies, cargo's metadata is assumed to be consistent (MetadataOk) and both runs to succeed (see C22 for when they do). Log messages are not modelled; they are all that --license-accept-named changes."
 },
 "C102": {
  "note": "Complete. The surroundings (Cargo.lock, clock, UUIDs) are the same in both runs, and the member has the same position, since the position decides which UUID is drawn."
 },
 "C103": {
  "note": "Complete. Only the set of components and their scope are compared; the packages themselves may change in other ways."
 },
 "C104": {
  "note": "Complete. Type, scope and subcomponents are not compared, since they depend on the member. C104_local_packages shows that package URLs of local packages do differ."
 },
 "C105": {
  "note": "Complete. Contents are compared as the SBOM, format and version handed to the writer of the file, which are all it depends on. That the part is exactly the executables and C-compatible libraries is C15."
 },
 "C106": {
  "note": "Complete. In top-level mode the entries of the dependencies are empty (C07), so C106_paths is for the mode with all dependencies."
 },
 "C107": {
  "note": "Complete for the mode with all dependencies. In top-level mode it is not expected: the SBOM then has only direct dependencies. That the packages are described the same way in both is C104."
 },
 "C108": {
  "note": "Complete. No assumption on the metadata of cargo. The triple goes through the normalisation of strings, which only changes tabs and line ends."
 },
 "C109": {
  "note": "Complete. No assumption on the metadata of cargo. What the fields say is in C49-C51, C16-C21, C56 and C108."
 }
}
