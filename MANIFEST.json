{
 "claims": [
  {
   "property": "C01",
   "status": "proved",
   "theorems": [
    "Cdx.Props.C01_kinds",
    "Cdx.Props.C01_scope"
   ],
   "note": ""
  },
  {
   "property": "C02",
   "status": "proved",
   "theorems": [
    "Cdx.Props.C02_all_dependencies"
   ],
   "note": ""
  },
  {
   "property": "C03",
   "status": "proved",
   "theorems": [
    "Cdx.Props.C03_dependencies_closed"
   ],
   "note": ""
  },
  {
   "property": "C04",
   "status": "proved",
   "theorems": [
    "Cdx.Props.C04_edges_exact"
   ],
   "note": ""
  },
  {
   "property": "C05",
   "status": "proved",
   "theorems": [
    "Cdx.Props.C05_no_build_deps"
   ],
   "note": ""
  },
  {
   "property": "C06",
   "status": "proved",
   "theorems": [
    "Cdx.Props.C06_no_dev_leak"
   ],
   "note": ""
  },
  {
   "property": "C07",
   "status": "proved",
   "theorems": [
    "Cdx.Props.C07_top_level"
   ],
   "note": ""
  },
  {
   "property": "C08",
   "status": "proved",
   "theorems": [
    "Cdx.Props.C08_order_independent",
    "Cdx.Props.C08_sorted"
   ],
   "note": ""
  },
  {
   "property": "C09",
   "status": "proved",
   "theorems": [
    "Cdx.Props.C09_refs_unique"
   ],
   "note": ""
  },
  {
   "property": "C10",
   "status": "proved",
   "theorems": [
    "Cdx.Props.C10_reproducible",
    "Cdx.Props.C10_serial_and_time"
   ],
   "note": ""
  },
  {
   "property": "C11",
   "status": "partial",
   "theorems": [
    "Cdx.Props.C11_cli_target_loses",
    "Cdx.Props.C11_precedence_partial",
    "Cdx.Props.C11_cli_settings_partial"
   ],
   "note": "False of the code: the target of the command line loses to CARGO_BUILD_TARGET-style settings because merge keeps the other side first (C11_cli_target_loses). Proved: which side wins for each setting."
  },
  {
   "property": "C12",
   "status": "proved",
   "theorems": [
    "Cdx.Props.C12_features",
    "Cdx.Props.C12_pieces_unique",
    "Cdx.Props.C12_features_present"
   ],
   "note": ""
  },
  {
   "property": "C13",
   "status": "proved",
   "theorems": [
    "Cdx.Props.C13_directory_and_extension",
    "Cdx.Props.C13_no_separator",
    "Cdx.Props.C13_override_checked",
    "Cdx.Props.C13_exact_name",
    "Cdx.Props.C13_artifact_names"
   ],
   "note": ""
  },
  {
   "property": "C14",
   "status": "proved",
   "theorems": [
    "Cdx.Props.C14_distinct_files",
    "Cdx.Props.C14_override_collapses"
   ],
   "note": ""
  },
  {
   "property": "C15",
   "status": "proved",
   "theorems": [
    "Cdx.Props.C15_artifacts"
   ],
   "note": ""
  },
  {
   "property": "C16",
   "status": "proved",
   "theorems": [
    "Cdx.Props.C16_licenses",
    "Cdx.Props.C16_at_most_one"
   ],
   "note": ""
  },
  {
   "property": "C17",
   "status": "proved",
   "theorems": [
    "Cdx.Props.C17_targets"
   ],
   "note": ""
  },
  {
   "property": "C18",
   "status": "proved",
   "theorems": [
    "Cdx.Props.C18_nearest_lock",
    "Cdx.Props.C18_no_lock"
   ],
   "note": ""
  },
  {
   "property": "C19",
   "status": "proved",
   "theorems": [
    "Cdx.Props.C19_checksums",
    "Cdx.Props.C19_no_lock"
   ],
   "note": ""
  },
  {
   "property": "C20",
   "status": "proved",
   "theorems": [
    "Cdx.Props.C20_external_references"
   ],
   "note": ""
  },
  {
   "property": "C21",
   "status": "proved",
   "theorems": [
    "Cdx.Props.C21_name_and_mail",
    "Cdx.Props.C21_name_only",
    "Cdx.Props.C21_dropped_only_for_mail",
    "Cdx.Props.C21_other_kept",
    "Cdx.Props.C21_authors"
   ],
   "note": ""
  },
  {
   "property": "C22",
   "status": "proved",
   "theorems": [
    "Cdx.Props.C22_one_per_member",
    "Cdx.Props.C22_no_panic"
   ],
   "note": ""
  },
  {
   "property": "C23",
   "status": "proved",
   "theorems": [
    "Cdx.Props.C23_query_and_commit",
    "Cdx.Props.C23_commit_only",
    "Cdx.Props.C23_reference",
    "Cdx.Props.C23_plain",
    "Cdx.Props.C23_qualifier",
    "Cdx.Props.C23_odd_separators"
   ],
   "note": ""
  },
  {
   "property": "C24",
   "status": "proved",
   "theorems": [
    "Cdx.Props.C24_reports_exactly_the_failures",
    "Cdx.Props.C24_every_call_performs",
    "Cdx.Props.C24_repeated_field"
   ],
   "note": ""
  },
  {
   "property": "C25",
   "status": "proved",
   "theorems": [
    "Cdx.Props.C25_bom_validation_never_panics",
    "Cdx.Props.C25_validate_never_panics",
    "Cdx.Props.C25_element_validation_never_panics"
   ],
   "note": ""
  },
  {
   "property": "C26",
   "status": "proved",
   "theorems": [
    "Cdx.Props.C26_list_errors"
   ],
   "note": ""
  },
  {
   "property": "C27",
   "status": "proved",
   "theorems": [
    "Cdx.Props.C27_unique_items"
   ],
   "note": ""
  },
  {
   "property": "C28",
   "status": "proved",
   "theorems": [
    "Cdx.Props.C28_nonunique_reported_iff",
    "Cdx.Props.C28_nonunique_names"
   ],
   "note": ""
  },
  {
   "property": "C29",
   "status": "proved",
   "theorems": [
    "Cdx.Props.C29_dangling_dependencies",
    "Cdx.Props.C29_dangling_compositions",
    "Cdx.Props.C29_composition_vulnerabilities_ignored"
   ],
   "note": ""
  },
  {
   "property": "C30",
   "status": "proved",
   "theorems": [
    "Cdx.Props.C30_normalizes",
    "Cdx.Props.C30_validates",
    "Cdx.Props.C30_unchanged",
    "Cdx.Props.C30_idempotent",
    "Cdx.Props.C30_rejects"
   ],
   "note": ""
  },
  {
   "property": "C31",
   "status": "partial",
   "theorems": [
    "Cdx.Props.C31_classification",
    "Cdx.Props.C31_scope",
    "Cdx.Props.C31_encoding",
    "Cdx.Props.C31_issueClassification",
    "Cdx.Props.C31_patchClassification",
    "Cdx.Props.C31_componentDataType",
    "Cdx.Props.C31_hashAlgorithm",
    "Cdx.Props.C31_licenseType",
    "Cdx.Props.C31_phase",
    "Cdx.Props.C31_approachType",
    "Cdx.Props.C31_dataFlowType",
    "Cdx.Props.C31_impactAnalysisState",
    "Cdx.Props.C31_impactAnalysisJustification",
    "Cdx.Props.C31_impactAnalysisResponse",
    "Cdx.Props.C31_severity",
    "Cdx.Props.C31_status",
    "Cdx.Props.C31_taskType",
    "Cdx.Props.C31_outputType",
    "Cdx.Props.C31_triggerType",
    "Cdx.Props.C31_accessMode",
    "Cdx.Props.C31_volumeMode",
    "Cdx.Props.C31_algorithm_refuted",
    "Cdx.Props.C31_algorithm_partial",
    "Cdx.Props.C31_identityField_refuted",
    "Cdx.Props.C31_identityField_partial",
    "Cdx.Props.C31_aggregateType_refuted",
    "Cdx.Props.C31_aggregateType_partial",
    "Cdx.Props.C31_externalReferenceType_refuted",
    "Cdx.Props.C31_externalReferenceType_partial",
    "Cdx.Props.C31_scoreMethod_refuted",
    "Cdx.Props.C31_scoreMethod_partial"
   ],
   "note": "Proved for 21 enumerations. False for five (refuted by witnesses); for these the exact set of values that survive is proved."
  },
  {
   "property": "C32",
   "status": "partial",
   "theorems": [
    "Cdx.Props.C32_hash_refuted",
    "Cdx.Props.C32_hash_partial"
   ],
   "note": "False: the regular expression is anchored wrongly (C32_hash_refuted). Proved: the exact set of accepted texts."
  },
  {
   "property": "C33",
   "status": "partial",
   "theorems": [
    "Cdx.Props.C33_confidence_refuted",
    "Cdx.Props.C33_confidence_partial"
   ],
   "note": "False: values above 1 and NaN pass (C33_confidence_refuted). Proved: the exact set of accepted values."
  },
  {
   "property": "C34",
   "status": "proved",
   "theorems": [
    "Cdx.Props.C34_urn_uuid"
   ],
   "note": ""
  },
  {
   "property": "C35",
   "status": "proved",
   "theorems": [
    "Cdx.Props.C35_selects",
    "Cdx.Props.C35_rejects",
    "Cdx.Props.C35_labels"
   ],
   "note": ""
  },
  {
   "property": "C36",
   "status": "partial",
   "theorems": [
    "Cdx.Props.C36_classification",
    "Cdx.Props.C36_component_rejected",
    "Cdx.Props.C36_scoreMethod",
    "Cdx.Props.C36_aggregate_refuted",
    "Cdx.Props.C36_aggregate_partial"
   ],
   "note": "Proved for classifications and score methods. False for aggregate types (C36_aggregate_refuted), where the exact behaviour is proved."
  },
  {
   "property": "C37",
   "status": "proved",
   "theorems": [
    "Cdx.Props.C37_licenses_1_5",
    "Cdx.Props.C37_licenses_before_1_5"
   ],
   "note": ""
  },
  {
   "property": "C38",
   "status": "partial",
   "theorems": [
    "Cdx.Props.C38_reaches_everything_refuted",
    "Cdx.Props.C38_reaches_checked_partial",
    "Cdx.Props.C38_passes_iff_rules_partial",
    "Cdx.Props.C38_element_passes_iff_rules_partial",
    "Cdx.Props.C38_ignores_bom_parts",
    "Cdx.Props.C38_ignores_component_parts",
    "Cdx.Props.C38_ignores_service_signature",
    "Cdx.Props.C38_ignores_lifecycles",
    "Cdx.Props.C38_ignores_identity_methods",
    "Cdx.Props.C38_ignores_last_updated",
    "Cdx.Props.C38_ignores_vulnerability_parts"
   ],
   "note": "False: some parts are never validated (C38_reaches_everything_refuted, C38_ignores_*). Proved: a document passes exactly if all elements that are visited satisfy their rules."
  },
  {
   "property": "C39",
   "status": "partial",
   "theorems": [
    "Cdx.Props.C39_convert_partial",
    "Cdx.Props.C39_convert15_partial",
    "Cdx.Props.C39_fails_algorithm",
    "Cdx.Props.C39_fails_name",
    "Cdx.Props.C39_json_partial",
    "Cdx.Props.C39_xml_partial",
    "Cdx.Props.C39_written_partial"
   ],
   "note": "Proved for the conversion to the structs of the specification modules and back (C39_convert_partial), and for writing and reading, for all documents whose enumeration values are read back from their names (Bom.Named); C75_survives_iff shows that this condition is exact. False for others: C39_fails_algorithm, C39_fails_name."
  },
  {
   "property": "C40",
   "status": "proved",
   "theorems": [
    "Cdx.Props.C40_one_root",
    "Cdx.Props.C40_tree",
    "Cdx.Props.C40_namespace"
   ],
   "note": ""
  },
  {
   "property": "C41",
   "status": "partial",
   "theorems": [
    "Cdx.Props.C41_xml_partial",
    "Cdx.Props.C41_xml_same_partial",
    "Cdx.Props.C41_signature_lost",
    "Cdx.Props.C41_licensing_lost",
    "Cdx.Props.C41_evidence_lost",
    "Cdx.Props.C41_proof_lost",
    "Cdx.Props.C41_blanks_lost",
    "Cdx.Props.C41_empty_text_rejected",
    "Cdx.Props.C41_task_rejected",
    "Cdx.Props.C41_no_tools",
    "Cdx.Props.C41_author_lost"
   ],
   "note": "False in general; what is lost or unreadable is shown by witnesses. Proved for all documents that avoid these parts (Bom.XmlOk); C78_exact shows that this condition is exact."
  },
  {
   "property": "C42",
   "status": "partial",
   "theorems": [
    "Cdx.Props.C42_bounded_values",
    "Cdx.Props.C42_bounded_lists",
    "Cdx.Props.C42_bounded_elements",
    "Cdx.Props.C42_bounded_dropping",
    "Cdx.Props.C42_document",
    "Cdx.Props.C42_beyond",
    "Cdx.Props.C42_values_partial",
    "Cdx.Props.C42_lists_partial",
    "Cdx.Props.C42_elements_partial",
    "Cdx.Props.C42_dropping_partial",
    "Cdx.Props.C42_fails"
   ],
   "note": "False in general (C42_fails). Proved for content in which no element that the reader ignores contains an element with one of the reader's own names. Without that condition: C42_bounded_values, _lists, _elements, _dropping: every reader consumes a part of its element and never anything behind it, and returns the same with anything else behind what it consumed; C42_document: of a document that can be read exactly the root element is consumed. For both, signatures must have no text of their own; C42_beyond shows that the reader of signatures goes beyond its element otherwise."
  },
  {
   "property": "C43",
   "status": "partial",
   "theorems": [
    "Cdx.Props.C43_anywhere_partial",
    "Cdx.Props.C43_conforming_partial",
    "Cdx.Props.C43_closed",
    "Cdx.Props.C43_namespace",
    "Cdx.Props.C43_document_partial",
    "Cdx.Props.C43_elements_partial",
    "Cdx.Props.C43_lists_partial"
   ],
   "note": "C43_anywhere_partial: foreign elements of whatever content, at any number of places and at any depth, change neither the value read nor the error, for all tame documents (tame as in C42); C43_conforming_partial: a conforming document is read as the same with and without them. The foreign elements must be in elements that are read leniently (a list of types, Spec.lenient) and must have no local name of the format. Both conditions are needed: C43_closed (in other elements the document becomes unreadable), C43_namespace (an element of another namespace with a name of the format is taken for one of the format). C43_document_partial, C43_elements_partial and C43_lists_partial say the same for each reader, for all names that the reader does not know."
  },
  {
   "property": "C44",
   "status": "partial",
   "theorems": [
    "Cdx.Props.C44_json_partial",
    "Cdx.Props.C44_json_same_partial",
    "Cdx.Props.C44_chain_lost",
    "Cdx.Props.C44_algorithm_lost",
    "Cdx.Props.C44_data_flow_lost"
   ],
   "note": "False in general; what is lost is shown by witnesses. Proved for all documents that avoid these parts (Bom.JsonOk); C77 shows that no other document comes back."
  },
  {
   "property": "C45",
   "status": "proved",
   "theorems": [
    "Cdx.Props.C45_attached_text",
    "Cdx.Props.C45_validates_iff"
   ],
   "note": ""
  },
  {
   "property": "C46",
   "status": "proved",
   "theorems": [
    "Cdx.Props.C46_lax_yields_strict",
    "Cdx.Props.C46_generated_expressions"
   ],
   "note": ""
  },
  {
   "property": "C47",
   "status": "proved",
   "theorems": [
    "Cdx.Props.C47_classified",
    "Cdx.Props.C47_validates",
    "Cdx.Props.C47_other_urls"
   ],
   "note": ""
  },
  {
   "property": "C48",
   "status": "proved",
   "theorems": [
    "Cdx.Props.C48_modules",
    "Cdx.Props.C48_fails",
    "Cdx.Props.C48_impl_items_not_filtered"
   ],
   "note": ""
  },
  {
   "property": "C49",
   "status": "proved",
   "theorems": [
    "Cdx.Props.C49_identity"
   ],
   "note": ""
  },
  {
   "property": "C50",
   "status": "proved",
   "theorems": [
    "Cdx.Props.C50_package_url"
   ],
   "note": ""
  },
  {
   "property": "C51",
   "status": "proved",
   "theorems": [
    "Cdx.Props.C51_target_purl"
   ],
   "note": ""
  },
  {
   "property": "C52",
   "status": "proved",
   "theorems": [
    "Cdx.Props.C52_cargo_invocation",
    "Cdx.Props.C52_host_platform"
   ],
   "note": ""
  },
  {
   "property": "C53",
   "status": "partial",
   "theorems": [
    "Cdx.Props.C53_component_types",
    "Cdx.Props.C53_reference_types_refuted",
    "Cdx.Props.C53_reference_types_partial",
    "Cdx.Props.C53_aggregate_types_refuted",
    "Cdx.Props.C53_aggregate_types_partial",
    "Cdx.Props.C53_phase_kept"
   ],
   "note": "Proved for component types. False for external reference types and aggregate types (refuted by witnesses), where the exact sets are proved."
  },
  {
   "property": "C54",
   "status": "proved",
   "theorems": [
    "Cdx.Props.C54_merge"
   ],
   "note": ""
  },
  {
   "property": "C55",
   "status": "partial",
   "theorems": [
    "Cdx.Props.C55_mime",
    "Cdx.Props.C55_cpe_refuted",
    "Cdx.Props.C55_cpe_partial"
   ],
   "note": "Proved for media types. False for CPEs, whose regular expression is not anchored (C55_cpe_refuted); the exact set is proved."
  },
  {
   "property": "C56",
   "status": "proved",
   "theorems": [
    "Cdx.Props.C56_serial_valid",
    "Cdx.Props.C56_serial_distinct",
    "Cdx.Props.C56_source_date_epoch"
   ],
   "note": ""
  },
  {
   "property": "C57",
   "status": "partial",
   "theorems": [
    "Cdx.Props.C57_exact",
    "Cdx.Props.C57_generated_valid_partial",
    "Cdx.Props.C57_written_exact",
    "Cdx.Props.C57_written_valid_partial",
    "Cdx.Props.C57_bom_link_refuted"
   ],
   "note": "False for packages with a URL that starts with urn:cdx (C57_bom_link_refuted). C57_exact and C57_written_exact say exactly which SBOMs are valid in which version: those in which every well-formed URL of a described package that starts with urn:cdx is a BOM-Link and the version is 1.5."
  },
  {
   "property": "C58",
   "status": "proved",
   "theorems": [
    "Cdx.Props.C58_json",
    "Cdx.Props.C58_xml"
   ],
   "note": ""
  },
  {
   "property": "C60",
   "status": "proved",
   "theorems": [
    "Cdx.Props.C60_only_what_the_version_has",
    "Cdx.Props.C60_newest_has_all",
    "Cdx.Props.C60_idempotent",
    "Cdx.Props.C60_lacks"
   ],
   "note": ""
  },
  {
   "property": "C61",
   "status": "partial",
   "theorems": [
    "Cdx.Props.C61_attributes_partial",
    "Cdx.Props.C61_attributes15_partial",
    "Cdx.Props.C61_fails",
    "Cdx.Props.C61_fails_attachment"
   ],
   "note": "False in version 1.5 (C61_fails, C61_fails_attachment). Proved for versions 1.3 and 1.4; for 1.5 it is proved that nothing else than these two kinds of start tags has an attribute twice."
  },
  {
   "property": "C62",
   "status": "proved",
   "theorems": [
    "Cdx.Props.C62_accepts_own",
    "Cdx.Props.C62_rejects_others",
    "Cdx.Props.C62_json_takes_others"
   ],
   "note": ""
  },
  {
   "property": "C59",
   "status": "proved",
   "theorems": [
    "Cdx.Props.C59_json"
   ],
   "note": ""
  },
  {
   "property": "C63",
   "status": "partial",
   "theorems": [
    "Cdx.Props.C63_run_partial",
    "Cdx.Props.C63_xml_partial",
    "Cdx.Props.C63_exact",
    "Cdx.Props.C63_empty_license_file",
    "Cdx.Props.C63_description_changed"
   ],
   "note": "False for texts with outer white space and for empty license files (C63_description_changed, C63_empty_license_file). Proved for all workspaces without them. C63_exact: an SBOM is read back unchanged exactly if the texts in it that come from manifests and options have no outer white space and no named license and no license text in it is empty."
  },
  {
   "property": "C64",
   "status": "partial",
   "theorems": [
    "Cdx.Props.C64_release_writes",
    "Cdx.Props.C64_debug_exact",
    "Cdx.Props.C64_debug_partial",
    "Cdx.Props.C64_debug_panics"
   ],
   "note": "Proved for release builds. False for debug builds if a URL of a package starts with urn:cdx (C64_debug_panics). C64_debug_exact: the debug build writes the same exactly if no well-formed URL of a described package starts with urn:cdx, and panics otherwise."
  },
  {
   "property": "C65",
   "status": "proved",
   "theorems": [
    "Cdx.Props.C65_generated_conforms",
    "Cdx.Props.C65_once_needed"
   ],
   "note": "Under FormatsAgree (the libraries accept and print what the formats of the schema ask) and PlainIds (package ids are not empty, each dependency is listed once), which Spec/SchemaEnv.lean states; C65_once_needed shows that the second is needed."
  },
  {
   "property": "C66",
   "status": "partial",
   "theorems": [
    "Cdx.Props.C66_conforms_partial",
    "Cdx.Props.C66_conforms_not_rejected",
    "Cdx.Props.C66_rejected"
   ],
   "note": "Partial: proved for every BOM whose elements are as the schema asks (Spec/Conforms.lean, a condition on each element on its own). The full statement is false: C66_rejected lists thirty BOMs that pass validation but are written as documents the schema rejects (members with wrong names such as bomRef and responses, values of the wrong shape, values the version does not have), each beside a BOM that lacks only the flaw and conforms."
  },
  {
   "property": "C67",
   "status": "proved",
   "theorems": [
    "Cdx.Props.C67_unique_members"
   ],
   "note": ""
  },
  {
   "property": "C68",
   "status": "partial",
   "theorems": [
    "Cdx.Props.C68_exact",
    "Cdx.Props.C68_reread_partial",
    "Cdx.Props.C68_fixpoint_partial",
    "Cdx.Props.C68_codified_lost",
    "Cdx.Props.C68_aggregate_lost",
    "Cdx.Props.C68_field_lost",
    "Cdx.Props.C68_infinity_unreadable"
   ],
   "note": "Proved for all documents except those with a number too large for f32, the external reference type codified-infrastructure, a misspelled aggregate, or an unknown identity field (Json.Settled); C68_codified_lost, C68_aggregate_lost, C68_field_lost and C68_infinity_unreadable show that the property fails for each of these. C68_exact: without this condition, the document comes back exactly if it satisfies the condition of C77."
  },
  {
   "property": "C69",
   "status": "proved",
   "theorems": [
    "Cdx.Props.C69_only_sbom_files",
    "Cdx.Props.C69_sources_untouched"
   ],
   "note": ""
  },
  {
   "property": "C70",
   "status": "proved",
   "theorems": [
    "Cdx.Props.C70_failure_leaves_everything",
    "Cdx.Props.C70_distinct_files",
    "Cdx.Props.C70_progress"
   ],
   "note": ""
  },
  {
   "property": "C71",
   "status": "proved",
   "theorems": [
    "Cdx.Props.C71_runs_through",
    "Cdx.Props.C71_json_complete",
    "Cdx.Props.C71_json_files"
   ],
   "note": ""
  },
  {
   "property": "C72",
   "status": "proved",
   "theorems": [
    "Cdx.Props.C72_rerun_repairs",
    "Cdx.Props.C72_rerun_idempotent"
   ],
   "note": ""
  },
  {
   "property": "C73",
   "status": "partial",
   "theorems": [
    "Cdx.Props.C73_conforming_read_partial",
    "Cdx.Props.C73_unreadable"
   ],
   "note": "Proved for all documents that avoid what Spec/Readable.lean lists, have no member twice and are not nested deeper than serde_json allows; C73_unreadable shows for each item of the list that a conforming document with it is rejected. Numbers that the model of JSON has no value for (Json.other) are excluded as a limit of the model."
  },
  {
   "property": "C74",
   "status": "partial",
   "theorems": [
    "Cdx.Props.C74_kept_partial",
    "Cdx.Props.C74_lost",
    "Cdx.Props.C74_changed"
   ],
   "note": "C74_kept_partial: documents that avoid what Readable, Settled and Lossless list come out as the same JSON value; the schema of 1.3 leaves every object open, so documents of 1.3 must have no other members than it names (StrictlyConforms). C74_lost and C74_changed: documents showing that each item of the lists is needed."
  },
  {
   "property": "C75",
   "status": "proved",
   "theorems": [
    "Cdx.Props.C75_survives_iff",
    "Cdx.Props.C75_converts",
    "Cdx.Props.C75_converts13",
    "Cdx.Props.C75_written",
    "Cdx.Props.C75_read"
   ],
   "note": ""
  },
  {
   "property": "C76",
   "status": "partial",
   "theorems": [
    "Cdx.Props.C76_exact",
    "Cdx.Props.C76_reread_partial",
    "Cdx.Props.C76_fixpoint_partial",
    "Cdx.Props.C76_blanks_lost",
    "Cdx.Props.C76_author_lost",
    "Cdx.Props.C76_codified_lost",
    "Cdx.Props.C76_licensing_lost",
    "Cdx.Props.C76_occurrences_lost",
    "Cdx.Props.C76_task_unreadable"
   ],
   "note": "Proved for all documents whose texts have no white space at their ends (character data never has, CDATA sections may) and that have none of the parts that XML does not keep (Bom.XmlKept, type by type). C76_blanks_lost, C76_author_lost, C76_codified_lost, C76_licensing_lost, C76_occurrences_lost and C76_task_unreadable show that the property fails for such documents; the theorems C41_* show it for further parts. C76_exact: without these conditions, the document comes back exactly if it satisfies the condition of C78."
  },
  {
   "property": "C77",
   "status": "proved",
   "theorems": [
    "Cdx.Props.C77_exact",
    "Cdx.Props.C77_exact_with",
    "Cdx.Props.C77_same",
    "Cdx.Props.C77_numbers"
   ],
   "note": "C77_exact and its forms for parts; C77_numbers: the finite 32-bit numbers, which the condition asks for, are exactly those that have a value."
  },
  {
   "property": "C78",
   "status": "proved",
   "theorems": [
    "Cdx.Props.C78_exact",
    "Cdx.Props.C78_same",
    "Cdx.Props.C78_lost"
   ],
   "note": ""
  },
  {
   "property": "C79",
   "status": "partial",
   "theorems": [
    "Cdx.Props.C79_report_places_partial",
    "Cdx.Props.C79_report_places_exact_partial",
    "Cdx.Props.C79_element_places_partial",
    "Cdx.Props.C79_report_places_fails"
   ],
   "note": "C79_report_places_partial: for every document the exact set of places, with one exception that C79_report_places_fails shows: the check for the date of the last update of a vulnerability analysis looks at the date of first issue, so a wrong date of first issue is reported at both places. C79_report_places_exact_partial: without a wrong date of first issue the places are exactly those of the violations. C79_element_places_partial: the same for every kind of element on its own."
  },
  {
   "property": "C80",
   "status": "partial",
   "theorems": [
    "Cdx.Props.C80_parse",
    "Cdx.Props.C80_parse_with_partial",
    "Cdx.Props.C80_written",
    "Cdx.Props.C80_order_matters"
   ],
   "note": "C80_parse is unconditional. C80_parse_with_partial: the readers for a version take the first of alternative members, so their order must be kept; C80_order_matters shows a license with both name and id whose order decides what is read."
  },
  {
   "property": "C81",
   "status": "partial",
   "theorems": [
    "Cdx.Props.C81_agree_partial",
    "Cdx.Props.C81_written",
    "Cdx.Props.C81_last_counts",
    "Cdx.Props.C81_twice_rejected",
    "Cdx.Props.C81_disagree"
   ],
   "note": "False in general: C81_disagree shows a document with a repeated member, which only parse_from_json accepts, and a license with name before id, of which the readers take different members. C81_agree_partial: they agree if no member is repeated and alternative members are in alphabetical order. C81_written: they agree on everything that is written."
  },
  {
   "property": "C82",
   "status": "partial",
   "theorems": [
    "Cdx.Props.C82_parse_partial",
    "Cdx.Props.C82_parse_with_partial",
    "Cdx.Props.C82_written_partial",
    "Cdx.Props.C82_fails"
   ],
   "note": "False in general: C82_fails shows that a member beside `license` in a list of licenses makes the document unreadable, because it is an externally tagged enumeration. Proved for all other objects. The depth of values that are ignored is not limited in the model; serde_json stops at depth 128."
  },
  {
   "property": "C83",
   "status": "partial",
   "theorems": [
    "Cdx.Props.C83_written",
    "Cdx.Props.C83_same",
    "Cdx.Props.C83_format_partial",
    "Cdx.Props.C83_generated",
    "Cdx.Props.C83_fails"
   ],
   "note": "False in general: C83_fails shows documents of version 1.5 (and 1.4 for signatures, 1.3 and 1.4 for the identifier of a contact) whose XML differs from the format. C83_written gives the exact vocabulary and order of everything written, C83_same compares it with the format, C83_format_partial covers all documents without the listed child elements and attributes, C83_generated everything that cargo cyclonedx writes. The table of the format is written by hand from the published format, with one entry for each element name; scripts/elements.py checks it against the valid XML documents of the repository. How often an element may occur is not part of the table."
  },
  {
   "property": "C84",
   "status": "proved",
   "theorems": [
    "Cdx.Props.C84_component",
    "Cdx.Props.C84_service",
    "Cdx.Props.C84_organization",
    "Cdx.Props.C84_always",
    "Cdx.Props.C84_license",
    "Cdx.Props.C84_reference",
    "Cdx.Props.C84_metadata",
    "Cdx.Props.C84_vulnerability_source",
    "Cdx.Props.C84_rating",
    "Cdx.Props.C84_analysis",
    "Cdx.Props.C84_affected",
    "Cdx.Props.C84_advisory",
    "Cdx.Props.C84_approach",
    "Cdx.Props.C84_signature",
    "Cdx.Props.C84_conversions",
    "Cdx.Props.C84_imprecise",
    "Cdx.Props.C84_uri_reference_refuted",
    "Cdx.Props.C84_texts",
    "Cdx.Props.C84_values",
    "Cdx.Props.C84_bomlink",
    "Cdx.Props.C84_range",
    "Cdx.Props.C84_names_refuted",
    "Cdx.Props.C84_document"
   ],
   "note": "Each theorem is an equivalence. C84_names_refuted: Service::new (and OrganizationalEntity::new) keep line breaks in names that Component::new and the others replace, so they can build elements that validation rejects. C84_uri_reference_refuted: a text that Uri::try_from accepts may still be rejected as the address of an external reference, as everything that begins with urn:cdx is taken for a BOM-Link. Purl::new, whose outcome is up to the purl crate, is covered by C50."
  },
  {
   "property": "C85",
   "status": "partial",
   "theorems": [
    "Cdx.Props.C85_conforming_partial",
    "Cdx.Props.C85_unordered_partial",
    "Cdx.Props.C85_unsupported"
   ],
   "note": "False in general: C85_unsupported gives conforming documents that cannot be read, one for each condition of Supported (processing instructions, texts mixed with CDATA sections, negative and large numbers, empty license names and texts, attachments in CDATA sections, dependencies nested three deep, parameters of inputs, datasets that are references). C85_conforming_partial and C85_unordered_partial cover all other conforming documents, up to the depth that the model allows for nesting. Assumed: f32::from_str accepts every decimal number. The table of the format is written by hand; scripts/xsd/check.py compares it with the documents of the repository."
  },
  {
   "property": "C86",
   "status": "partial",
   "theorems": [
    "Cdx.Props.C86_written_partial",
    "Cdx.Props.C86_generated",
    "Cdx.Props.C86_fails"
   ],
   "note": "C86_generated covers the files of cargo cyclonedx in full. For documents built with the library it is false in general: C86_fails gives a document for each case of Departs that can be written but is then not valid, although most of them pass validation. C86_written_partial says that every element is valid or is one of these cases. Assumed for it: finite f32 values are displayed as decimal numbers (DecimalsShown). Allowed values of texts and uniqueness of identifiers are not part of the table of the schema."
  },
  {
   "property": "C87",
   "status": "partial",
   "theorems": [
    "Cdx.Props.C87_same_partial",
    "Cdx.Props.C87_unknown_attributes",
    "Cdx.Props.C87_attribute_order",
    "Cdx.Props.C87_prefix_partial",
    "Cdx.Props.C87_default_namespace"
   ],
   "note": "False for documents that use a prefix and declare no default namespace: C87_default_namespace shows that none of them can be read, since the root element is recognised by the default namespace. Everything else is proved: C87_same_partial for documents in correspondence, with the corollaries C87_unknown_attributes, C87_attribute_order and C87_prefix_partial. Attributes are identified by their local names, as in the code; names of elements must correspond one to one, also as they are displayed."
  },
  {
   "property": "C88",
   "status": "partial",
   "theorems": [
    "Cdx.Props.C88_order_partial",
    "Cdx.Props.C88_format_order_partial",
    "Cdx.Props.C88_lists_keep_order"
   ],
   "note": "Proved for all documents of the format (child elements in any order, nothing that Supported excludes): exchanging neighbouring child elements whose names belong to different parts of the sequence, any number of times and at any depth, does not change the result; and every such document can be brought into the order of the schema this way. Partial because documents that the library rejects are not covered: there the errors depend on the order. C88_lists_keep_order shows that elements of one list must not be exchanged."
  },
  {
   "property": "C89",
   "status": "proved",
   "theorems": [
    "Cdx.Props.C89_json_keeps_more",
    "Cdx.Props.C89_xml_to_json",
    "Cdx.Props.C89_xml_kept",
    "Cdx.Props.C89_back_to_xml",
    "Cdx.Props.C89_json_to_xml",
    "Cdx.Props.C89_there_and_back",
    "Cdx.Props.C89_chain_lost",
    "Cdx.Props.C89_flows_lost",
    "Cdx.Props.C89_infinity_lost"
   ],
   "note": "C89_xml_to_json and C89_json_to_xml: exactly the documents that satisfy Bom.JsonOk and Bom.XmlOk are kept, for all events and all JSON values that are read. C89_there_and_back, C89_back_to_xml: the way back. C89_json_keeps_more: JSON keeps every BOM that XML keeps, unless it has an infinite score, a chain of signatures or (1.5) data flows; each of the three is shown to be lost in JSON and kept in XML."
  },
  {
   "property": "C90",
   "status": "proved",
   "theorems": [
    "Cdx.Props.C90_json",
    "Cdx.Props.C90_xml",
    "Cdx.Props.C90_json_read",
    "Cdx.Props.C90_xml_read",
    "Cdx.Props.C90_tree",
    "Cdx.Props.C90_misnamed",
    "Cdx.Props.C90_clash"
   ],
   "note": "Spec/Tree.lean lists the fields of every structure under their names and says which member of JSON each one is; Spec/TreeXml.lean is a table of the elements and attributes of XML. C90_json, C90_xml: what is written is exactly this. C90_json_read, C90_xml_read: what is at these places is read into these fields, for all documents that C77 and C78 say are kept. C90_tree: the tree has all fields. C90_misnamed: the names in JSON that are not those of the format are exactly ten. C90_clash: in XML only attachments and data flows write a field under the name of another one."
  },
  {
   "property": "C91",
   "status": "proved",
   "theorems": [
    "Cdx.Props.C91_json",
    "Cdx.Props.C91_json_with",
    "Cdx.Props.C91_xml",
    "Cdx.Props.C91_nothing_dropped_json",
    "Cdx.Props.C91_nothing_dropped_xml"
   ],
   "note": "Spec/Dated.lean lists the fields that came with versions 1.4 and 1.5, structure by structure. C91_json, C91_json_with, C91_xml: none of those later than the version is there in any part of what is read, for every input. C91_nothing_dropped_*: so a later version drops nothing."
  },
  {
   "property": "C92",
   "status": "proved",
   "theorems": [
    "Cdx.Props.C92_exact",
    "Cdx.Props.C92_order",
    "Cdx.Props.C92_unknown",
    "Cdx.Props.C92_every",
    "Cdx.Props.C92_refused",
    "Cdx.Props.C92_accepted",
    "Cdx.Props.C92_logging"
   ],
   "note": "Spec/Args.lean has the table of options, the spellings, and what options mean. C92_exact: accepted exactly then, with exactly these settings. C92_order, C92_every, C92_unknown: order, all settings, unknown options. C92_refused, C92_accepted: what the run does. C92_logging. clap is modelled by what its derive makes of cli.rs; help, version and RUST_LOG are left out."
  },
  {
   "property": "C93",
   "status": "proved",
   "theorems": [
    "Cdx.Props.C93_later",
    "Cdx.Props.C93_earlier",
    "Cdx.Props.C93_same",
    "Cdx.Props.C93_needed"
   ],
   "note": "Spec/Versions.lean has the license rule of 1.5 and the list of what came with 1.5. C93_later, C93_earlier: exact conditions in both directions. C93_same: 1.3 and 1.4. C93_needed: both conditions are needed."
  },
  {
   "property": "C94",
   "status": "partial",
   "theorems": [
    "Cdx.Props.C94_exact",
    "Cdx.Props.C94_json_partial",
    "Cdx.Props.C94_xml_partial",
    "Cdx.Props.C94_later",
    "Cdx.Props.C94_read_json",
    "Cdx.Props.C94_read_xml",
    "Cdx.Props.C94_read_same",
    "Cdx.Props.C94_refuted"
   ],
   "note": "The code violates the full statement in version 1.3 (C94_refuted): vulnerabilities are left out there, but dependencies and compositions that refer to one are kept. C94_exact: this is the only way. C94_json_partial, C94_xml_partial: proved under this condition; C94_later: none needed from 1.4 on; C94_read_json, C94_read_xml, C94_read_same: none needed for documents that were read, in any version, and in a later version they stay valid exactly if the rule of 1.5 for lists of licenses holds."
  },
  {
   "property": "C95",
   "status": "partial",
   "theorems": [
    "Cdx.Props.C95_down_json",
    "Cdx.Props.C95_down_xml",
    "Cdx.Props.C95_up_json",
    "Cdx.Props.C95_up_xml_partial",
    "Cdx.Props.C95_up_xml_refuted"
   ],
   "note": "C95_down_json, C95_down_xml: older versions, complete. C95_up_json: newer versions, JSON, complete. C95_up_xml_partial: newer versions, XML; the code violates this for an empty list of tools, which a 1.5 file does not keep (C95_up_xml_refuted)."
  },
  {
   "property": "C96",
   "status": "proved",
   "theorems": [
    "Cdx.Props.C96_values",
    "Cdx.Props.C96_lists",
    "Cdx.Props.C96_elements",
    "Cdx.Props.C96_document",
    "Cdx.Props.C96_limit",
    "Cdx.Props.C96_limit_json"
   ],
   "note": "Complete for finite sequences of events. The end of the events is an error that the XML library reports. The error `depth` of the model stands for the end of the stack."
  },
  {
   "property": "C97",
   "status": "proved",
   "theorems": [
    "Cdx.Props.C97_exact",
    "Cdx.Props.C97_agree",
    "Cdx.Props.C97_relabelled"
   ],
   "note": "Complete for JSON, exact in both directions. XML documents are read only as their own version (C62)."
  },
  {
   "property": "C98",
   "status": "proved",
   "theorems": [
    "Cdx.Props.C98_json",
    "Cdx.Props.C98_xml",
    "Cdx.Props.C98_read_json",
    "Cdx.Props.C98_read_xml",
    "Cdx.Props.C98_part"
   ],
   "note": "Complete: JSON values and XML events; that a BOM was read from a document of a version is enough for its condition (C91)."
  },
  {
   "property": "C99",
   "status": "partial",
   "theorems": [
    "Cdx.Props.C99_json_partial",
    "Cdx.Props.C99_xml_partial",
    "Cdx.Props.C99_formats_partial",
    "Cdx.Props.C99_generated",
    "Cdx.Props.C99_generated_xml_partial",
    "Cdx.Props.C99_collision"
   ],
   "note": "False in general: C99_collision, an enumeration value given as unknown with the name of a known one. Proved for all BOMs that the formats keep (the exact conditions of C77 and C78), and without restriction for the JSON files that the tool generates (C99_generated)."
  },
  {
   "property": "C100",
   "status": "proved",
   "theorems": [
    "Cdx.Props.C100_content",
    "Cdx.Props.C100_override",
    "Cdx.Props.C100_version",
    "Cdx.Props.C100_files"
   ],
   "note": "Complete; for --override-filename the name must be accepted, since a name with a path separator is an error (C100_override). The surroundings (cargo, clock, UUIDs) are the same in both runs; the metadata that cargo gives must be consistent (MetadataOk) for the statement about files."
  },
  {
   "property": "C101",
   "status": "proved",
   "theorems": [
    "Cdx.Props.C101_licenses",
    "Cdx.Props.C101_dependencies",
    "Cdx.Props.C101_accept_named",
    "Cdx.Props.C101_verbosity"
   ],
   "note": "Whole generation runs are compared; the SBOMs without licenses are defined in Spec/Options.lean. For the options for dependencies, cargo's metadata is assumed to be consistent (MetadataOk) and both runs to succeed (see C22 for when they do). Log messages are not modelled; they are all that --license-accept-named changes."
  },
  {
   "property": "C102",
   "status": "proved",
   "theorems": [
    "Cdx.Props.C102_local"
   ],
   "note": "Complete. The surroundings (Cargo.lock, clock, UUIDs) are the same in both runs, and the member has the same position, since the position decides which UUID is drawn."
  },
  {
   "property": "C103",
   "status": "proved",
   "theorems": [
    "Cdx.Props.C103_growth"
   ],
   "note": "Complete. Only the set of components and their scope are compared; the packages themselves may change in other ways."
  },
  {
   "property": "C104",
   "status": "proved",
   "theorems": [
    "Cdx.Props.C104_uniform",
    "Cdx.Props.C104_local_packages"
   ],
   "note": "Complete. Type, scope and subcomponents are not compared, since they depend on the member. C104_local_packages shows that package URLs of local packages do differ."
  },
  {
   "property": "C105",
   "status": "proved",
   "theorems": [
    "Cdx.Props.C105_binaries"
   ],
   "note": "Complete. Contents are compared as the SBOM, format and version handed to the writer of the file, which are all it depends on. That the part is exactly the executables and C-compatible libraries is C15."
  },
  {
   "property": "C106",
   "status": "proved",
   "theorems": [
    "Cdx.Props.C106_paths",
    "Cdx.Props.C106_no_orphans"
   ],
   "note": "Complete. In top-level mode the entries of the dependencies are empty (C07), so C106_paths is for the mode with all dependencies."
  },
  {
   "property": "C107",
   "status": "proved",
   "theorems": [
    "Cdx.Props.C107_nested"
   ],
   "note": "Complete for the mode with all dependencies. In top-level mode it is not expected: the SBOM then has only direct dependencies. That the packages are described the same way in both is C104."
  },
  {
   "property": "C108",
   "status": "proved",
   "theorems": [
    "Cdx.Props.C108_platform"
   ],
   "note": "Complete. No assumption on the metadata of cargo. The triple goes through the normalisation of strings, which only changes tabs and line ends."
  },
  {
   "property": "C109",
   "status": "proved",
   "theorems": [
    "Cdx.Props.C109_nothing_else"
   ],
   "note": "Complete. No assumption on the metadata of cargo. What the fields say is in C49-C51, C16-C21, C56 and C108."
  }
 ]
}