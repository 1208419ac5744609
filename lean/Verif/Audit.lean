import Verif.Props.Agree
import Verif.Props.Args
import Verif.Props.Bounds
import Verif.Props.Builds
import Verif.Props.Cells
import Verif.Props.CliMain
import Verif.Props.ColumnObjects
import Verif.Props.Columns
import Verif.Props.Compression
import Verif.Props.Creator
import Verif.Props.Cut
import Verif.Props.Damage
import Verif.Props.DateTime
import Verif.Props.Debug
import Verif.Props.Decode
import Verif.Props.Errors
import Verif.Props.Export
import Verif.Props.Filters
import Verif.Props.Header
import Verif.Props.HostOrder
import Verif.Props.Log
import Verif.Props.LogReasons
import Verif.Props.LogScreen
import Verif.Props.LogText
import Verif.Props.Loops
import Verif.Props.NullTest
import Verif.Props.NumText
import Verif.Props.Order
import Verif.Props.Places
import Verif.Props.PyAsk
import Verif.Props.PyCounts
import Verif.Props.PyFront
import Verif.Props.PyLife
import Verif.Props.PyOwn
import Verif.Props.PyProps
import Verif.Props.PyRefs
import Verif.Props.PySinks
import Verif.Props.PyThrowing
import Verif.Props.PyTime
import Verif.Props.RChunks
import Verif.Props.RFront
import Verif.Props.RReuse
import Verif.Props.RSinks
import Verif.Props.RThrowing
import Verif.Props.Reader
import Verif.Props.Resources
import Verif.Props.Reuse
import Verif.Props.Rows
import Verif.Props.Safety
import Verif.Props.Says
import Verif.Props.Several
import Verif.Props.SourceThrowing
import Verif.Props.Sources
import Verif.Props.Streams
import Verif.Props.Termination
import Verif.Props.Text
import Verif.Props.Throwing
import Verif.Props.Values
import Verif.Props.Writer

/-! The axioms of every theorem listed in `MANIFEST.json` (generated by `tools/gen_audit.py`). -/

#print axioms Sas.Props.C01_rows
#print axioms Sas.Props.C01_uncompressed
#print axioms Sas.Props.C01_compressed_partial
#print axioms Sas.Props.C02_granularity
#print axioms Sas.Props.C02_readAll
#print axioms Sas.Props.C03_skip
#print axioms Sas.Props.C03_skip_add
#print axioms Sas.Props.C04_open
#print axioms Sas.Props.C04_bounds
#print axioms Sas.Props.C04_step
#print axioms Sas.Props.C05_end_final
#print axioms Sas.Props.C05_after_exception
#print axioms Sas.Props.C06_readRows
#print axioms Sas.Props.C06_zero
#print axioms Sas.Props.C07_no_sink
#print axioms Sas.Props.C07_cases
#print axioms Sas.Props.C08_protocol
#print axioms Sas.Props.C08_end_last
#print axioms Sas.Props.C09_count
#print axioms Sas.Props.C09_refuted
#print axioms Sas.Props.C09_once_partial
#print axioms Sas.Props.C10_resync
#print axioms Sas.Props.C100_calls
#print axioms Sas.Props.C100_histories
#print axioms Sas.Props.C100_opening
#print axioms Sas.Props.C100_few
#print axioms Sas.Props.C100_missing
#print axioms Sas.Props.C100_decompress
#print axioms Sas.Props.C100_reasons
#print axioms Sas.Props.C100_warnings
#print axioms Sas.Props.C100_written
#print axioms Sas.Props.C100_texts
#print axioms Sas.Props.C100_levels
#print axioms Sas.Props.C100_lines
#print axioms Sas.Props.C100_screen
#print axioms Sas.Props.C100_listing_partial
#print axioms Sas.Props.C100_listing_refuted
#print axioms Sas.Props.C101_rle
#print axioms Sas.Props.C101_rdc
#print axioms Sas.Props.C101_safe
#print axioms Sas.Props.C102_sink
#print axioms Sas.Props.C102_wrappers_partial
#print axioms Sas.Props.C102_refuted
#print axioms Sas.Props.C102_file_partial
#print axioms Sas.Props.C103_exact_partial
#print axioms Sas.Props.C103_together_partial
#print axioms Sas.Props.C103_file_partial
#print axioms Sas.Props.C103_refuted
#print axioms Sas.Props.C104_python
#print axioms Sas.Props.C104_r
#print axioms Sas.Props.C104_distinct
#print axioms Sas.Props.C105_files_partial
#print axioms Sas.Props.C105_layouts_partial
#print axioms Sas.Props.C105_chunks_partial
#print axioms Sas.Props.C105_csv_partial
#print axioms Sas.Props.C105_only_python_refuted
#print axioms Sas.Props.C105_only_r_refuted
#print axioms Sas.Props.C105_twins_refuted
#print axioms Sas.Props.C106_needed
#print axioms Sas.Props.C106_csv_partial
#print axioms Sas.Props.C106_print_partial
#print axioms Sas.Props.C106_commands
#print axioms Sas.Props.C106_dates_refuted
#print axioms Sas.Props.C106_rows_refuted
#print axioms Sas.Props.C11_too_short
#print axioms Sas.Props.C11_magic
#print axioms Sas.Props.C11_short_only
#print axioms Sas.Props.C11_file
#print axioms Sas.Props.C12_fields
#print axioms Sas.Props.C12_file
#print axioms Sas.Props.C13_unsigned
#print axioms Sas.Props.C13_signed
#print axioms Sas.Props.C13_reverse
#print axioms Sas.Props.C13_column
#print axioms Sas.Props.C13_column1
#print axioms Sas.Props.C14_read
#print axioms Sas.Props.C14_accuracy
#print axioms Sas.Props.C14_nan
#print axioms Sas.Props.C15_cell
#print axioms Sas.Props.C15_unique
#print axioms Sas.Props.C15_text
#print axioms Sas.Props.C16_rle_behaviour
#print axioms Sas.Props.C16_rle_roundtrip_partial
#print axioms Sas.Props.C16_refuted
#print axioms Sas.Props.C17_rdc_behaviour
#print axioms Sas.Props.C17_rdc_roundtrip_partial
#print axioms Sas.Props.C17_refuted
#print axioms Sas.Props.C18_rle
#print axioms Sas.Props.C18_rdc
#print axioms Sas.Props.C19_rle_safe_partial
#print axioms Sas.Props.C19_rle_refuted
#print axioms Sas.Props.C19_rdc_safe_partial
#print axioms Sas.Props.C19_rdc_refuted
#print axioms Sas.Props.C20_count
#print axioms Sas.Props.C20_columns
#print axioms Sas.Props.C20_short
#print axioms Sas.Props.C21_filter
#print axioms Sas.Props.C21_acceptAll
#print axioms Sas.Props.C21_includeExclude
#print axioms Sas.Props.C22_same_rows
#print axioms Sas.Props.C22_same_columns
#print axioms Sas.Props.C23_type
#print axioms Sas.Props.C23_disjoint
#print axioms Sas.Props.C23_always
#print axioms Sas.Props.C24_eight_partial
#print axioms Sas.Props.C24_refuted
#print axioms Sas.Props.C24_overread
#print axioms Sas.Props.C25_opening_partial
#print axioms Sas.Props.C25_calls_partial
#print axioms Sas.Props.C25_before_pages_partial
#print axioms Sas.Props.C25_refuted
#print axioms Sas.Props.C25_overrun_refuted
#print axioms Sas.Props.C25_infinite_date_refuted
#print axioms Sas.Props.C26_terminates_partial
#print axioms Sas.Props.C26_file_partial
#print axioms Sas.Props.C26_refuted
#print axioms Sas.Props.C27_truncated
#print axioms Sas.Props.C27_failed
#print axioms Sas.Props.C27_failed_open
#print axioms Sas.Props.C28_refuted
#print axioms Sas.Props.C28_first_partial
#print axioms Sas.Props.C29_partial
#print axioms Sas.Props.C29_refuted
#print axioms Sas.Props.C29_fails
#print axioms Sas.Props.C29_date_refuted
#print axioms Sas.Props.C30_chunks_partial
#print axioms Sas.Props.C30_refuted
#print axioms Sas.Props.C30_names_refuted
#print axioms Sas.Props.C31_chunks_partial
#print axioms Sas.Props.C31_refuted
#print axioms Sas.Props.C31_index_refuted
#print axioms Sas.Props.C32_python_partial
#print axioms Sas.Props.C32_empty_refuted
#print axioms Sas.Props.C32_R_partial
#print axioms Sas.Props.C32_R_empty_refuted
#print axioms Sas.Props.C32_R_twice_refuted
#print axioms Sas.Props.C32_R_refuted
#print axioms Sas.Props.C33_refuted
#print axioms Sas.Props.C33_no_output
#print axioms Sas.Props.C33_readonly_partial
#print axioms Sas.Props.C33_name_partial
#print axioms Sas.Props.C34_limit
#print axioms Sas.Props.C34_print
#print axioms Sas.Props.C34_damaged
#print axioms Sas.Props.C35_datetime_partial
#print axioms Sas.Props.C35_stored
#print axioms Sas.Props.C35_time_stored
#print axioms Sas.Props.C35_parts
#print axioms Sas.Props.C35_date
#print axioms Sas.Props.C35_time_partial
#print axioms Sas.Props.C35_missing
#print axioms Sas.Props.C35_refuted
#print axioms Sas.Props.C36_inert
#print axioms Sas.Props.C37_encoding
#print axioms Sas.Props.C38_time
#print axioms Sas.Props.C38_from_delta
#print axioms Sas.Props.C38_delta_partial
#print axioms Sas.Props.C38_datetime
#print axioms Sas.Props.C38_date
#print axioms Sas.Props.C38_from_date
#print axioms Sas.Props.C38_missing
#print axioms Sas.Props.C38_refuted
#print axioms Sas.Props.C39_partition
#print axioms Sas.Props.C40_properties
#print axioms Sas.Props.C41_missing_partial
#print axioms Sas.Props.C41_refuted
#print axioms Sas.Props.C42_resize
#print axioms Sas.Props.C42_page
#print axioms Sas.Props.C43_uncompressed
#print axioms Sas.Props.C43_every
#print axioms Sas.Props.C44_inside
#print axioms Sas.Props.C44_text_partial
#print axioms Sas.Props.C44_refuted
#print axioms Sas.Props.C45_compression
#print axioms Sas.Props.C45_unique
#print axioms Sas.Props.C46_refuted
#print axioms Sas.Props.C46_rows_partial
#print axioms Sas.Props.C47_rows
#print axioms Sas.Props.C48_refuted
#print axioms Sas.Props.C48_named_partial
#print axioms Sas.Props.C49_aligned_partial
#print axioms Sas.Props.C49_refuted
#print axioms Sas.Props.C50_refuted
#print axioms Sas.Props.C50_rows_partial
#print axioms Sas.Props.C51_calendar
#print axioms Sas.Props.C52_text_partial
#print axioms Sas.Props.C52_refuted
#print axioms Sas.Props.C53_benign_partial
#print axioms Sas.Props.C53_refuted
#print axioms Sas.Props.C54_first_end_partial
#print axioms Sas.Props.C54_refuted
#print axioms Sas.Props.C55_until_push_partial
#print axioms Sas.Props.C55_refuted
#print axioms Sas.Props.C55_vectors_refuted
#print axioms Sas.Props.C55_row_refuted
#print axioms Sas.Props.C56_rows
#print axioms Sas.Props.C57_refuted
#print axioms Sas.Props.C57_partial
#print axioms Sas.Props.C58_partial
#print axioms Sas.Props.C58_brace_refuted
#print axioms Sas.Props.C58_cells
#print axioms Sas.Props.C59_null
#print axioms Sas.Props.C60_sizes
#print axioms Sas.Props.C60_compression
#print axioms Sas.Props.C61_layouts_partial
#print axioms Sas.Props.C61_every_partial
#print axioms Sas.Props.C62_arguments_partial
#print axioms Sas.Props.C62_long_refuted
#print axioms Sas.Props.C62_sinks
#print axioms Sas.Props.C63_layouts_partial
#print axioms Sas.Props.C63_every_partial
#print axioms Sas.Props.C63_empty_refuted
#print axioms Sas.Props.C63_twins_refuted
#print axioms Sas.Props.C64_df_partial
#print axioms Sas.Props.C64_labels_refuted
#print axioms Sas.Props.C64_stale_refuted
#print axioms Sas.Props.C64_lost_refuted
#print axioms Sas.Props.C64_dropped_refuted
#print axioms Sas.Props.C64_continue_refuted
#print axioms Sas.Props.C64_empty_refuted
#print axioms Sas.Props.C65_names
#print axioms Sas.Props.C65_latin1_refuted
#print axioms Sas.Props.C66_arguments_partial
#print axioms Sas.Props.C66_long_refuted
#print axioms Sas.Props.C66_sinks_partial
#print axioms Sas.Props.C66_size_refuted
#print axioms Sas.Props.C67_open_partial
#print axioms Sas.Props.C67_date_refuted
#print axioms Sas.Props.C67_row_refuted
#print axioms Sas.Props.C67_columns_refuted
#print axioms Sas.Props.C68_data_partial
#print axioms Sas.Props.C68_layouts_partial
#print axioms Sas.Props.C68_every_partial
#print axioms Sas.Props.C68_empty_refuted
#print axioms Sas.Props.C68_zero_refuted
#print axioms Sas.Props.C69_exact_partial
#print axioms Sas.Props.C69_chunks_partial
#print axioms Sas.Props.C69_layouts_partial
#print axioms Sas.Props.C69_whole_refuted
#print axioms Sas.Props.C69_chunks_refuted
#print axioms Sas.Props.C69_empty_refuted
#print axioms Sas.Props.C69_names_refuted
#print axioms Sas.Props.C70_checked_partial
#print axioms Sas.Props.C70_refuted
#print axioms Sas.Props.C71_count_partial
#print axioms Sas.Props.C71_balanced_partial
#print axioms Sas.Props.C71_raising_partial
#print axioms Sas.Props.C71_unharmed_partial
#print axioms Sas.Props.C71_missing_refuted
#print axioms Sas.Props.C71_header_refuted
#print axioms Sas.Props.C72_open
#print axioms Sas.Props.C72_call
#print axioms Sas.Props.C72_histories
#print axioms Sas.Props.C72_protocol
#print axioms Sas.Props.C72_rows
#print axioms Sas.Props.C72_quiet
#print axioms Sas.Props.C73_chunks_partial
#print axioms Sas.Props.C73_end_partial
#print axioms Sas.Props.C73_data_partial
#print axioms Sas.Props.C73_rows
#print axioms Sas.Props.C73_stuck
#print axioms Sas.Props.C73_names
#print axioms Sas.Props.C73_size_refuted
#print axioms Sas.Props.C73_stuck_refuted
#print axioms Sas.Props.C74_written
#print axioms Sas.Props.C74_prefix
#print axioms Sas.Props.C74_silent
#print axioms Sas.Props.C74_reported_partial
#print axioms Sas.Props.C74_csv
#print axioms Sas.Props.C74_print
#print axioms Sas.Props.C74_refuted
#print axioms Sas.Props.C75_source
#print axioms Sas.Props.C75_memory
#print axioms Sas.Props.C76_tail_partial
#print axioms Sas.Props.C76_refuted
#print axioms Sas.Props.C77_reads
#print axioms Sas.Props.C77_enough
#print axioms Sas.Props.C77_logged
#print axioms Sas.Props.C77_file
#print axioms Sas.Props.C78_memory
#print axioms Sas.Props.C79_block
#print axioms Sas.Props.C79_sink
#print axioms Sas.Props.C79_no_allocation
#print axioms Sas.Props.C79_bytes_partial
#print axioms Sas.Props.C79_refuted
#print axioms Sas.Props.C80_instants
#print axioms Sas.Props.C80_dates
#print axioms Sas.Props.C80_texts
#print axioms Sas.Props.C80_columns
#print axioms Sas.Props.C80_times_partial
#print axioms Sas.Props.C80_refuted
#print axioms Sas.Props.C81_number
#print axioms Sas.Props.C81_whole
#print axioms Sas.Props.C81_csv
#print axioms Sas.Props.C81_to_string_partial
#print axioms Sas.Props.C81_refuted
#print axioms Sas.Props.C82_builds
#print axioms Sas.Props.C82_vouches
#print axioms Sas.Props.C83_print_partial
#print axioms Sas.Props.C83_null_partial
#print axioms Sas.Props.C83_success_partial
#print axioms Sas.Props.C83_listing_partial
#print axioms Sas.Props.C83_one_partial
#print axioms Sas.Props.C83_csv_refuted
#print axioms Sas.Props.C84_text_partial
#print axioms Sas.Props.C84_whole_partial
#print axioms Sas.Props.C84_append_partial
#print axioms Sas.Props.C84_stale_refuted
#print axioms Sas.Props.C84_empty_refuted
#print axioms Sas.Props.C84_two_readers_refuted
#print axioms Sas.Props.C84_r_whole_partial
#print axioms Sas.Props.C84_r_chunk_partial
#print axioms Sas.Props.C84_r_empty_refuted
#print axioms Sas.Props.C84_r_columns_refuted
#print axioms Sas.Props.C85_alive_partial
#print axioms Sas.Props.C85_shows_partial
#print axioms Sas.Props.C85_dangling_refuted
#print axioms Sas.Props.C86_chunks_partial
#print axioms Sas.Props.C86_safe_partial
#print axioms Sas.Props.C86_end_partial
#print axioms Sas.Props.C86_data_partial
#print axioms Sas.Props.C86_data_end_partial
#print axioms Sas.Props.C86_rows
#print axioms Sas.Props.C86_next_row
#print axioms Sas.Props.C86_refuted
#print axioms Sas.Props.C87_csv_partial
#print axioms Sas.Props.C87_layouts_csv
#print axioms Sas.Props.C87_layouts_python_partial
#print axioms Sas.Props.C87_layouts_r_partial
#print axioms Sas.Props.C87_r_order_refuted
#print axioms Sas.Props.C88_python
#print axioms Sas.Props.C88_python_open
#print axioms Sas.Props.C88_r
#print axioms Sas.Props.C88_r_open
#print axioms Sas.Props.C89_ends
#print axioms Sas.Props.C89_loop
#print axioms Sas.Props.C89_loop_row
#print axioms Sas.Props.C89_python
#print axioms Sas.Props.C89_r
#print axioms Sas.Props.C89_read_sas
#print axioms Sas.Props.C89_r_read_sas
#print axioms Sas.Props.C89_zero_refuted
#print axioms Sas.Props.C90_prefix_partial
#print axioms Sas.Props.C90_cut_partial
#print axioms Sas.Props.C90_device_partial
#print axioms Sas.Props.C90_csv_partial
#print axioms Sas.Props.C90_silent_refuted
#print axioms Sas.Props.C90_metadata_refuted
#print axioms Sas.Props.C91_python
#print axioms Sas.Props.C91_python_raises
#print axioms Sas.Props.C91_python_index
#print axioms Sas.Props.C91_python_script
#print axioms Sas.Props.C91_r_partial
#print axioms Sas.Props.C91_r_raises
#print axioms Sas.Props.C91_r_index_partial
#print axioms Sas.Props.C91_r_script_partial
#print axioms Sas.Props.C91_r_half
#print axioms Sas.Props.C91_r_wild_refuted
#print axioms Sas.Props.C92_python_partial
#print axioms Sas.Props.C92_columns_partial
#print axioms Sas.Props.C92_names
#print axioms Sas.Props.C92_written_partial
#print axioms Sas.Props.C92_text_refuted
#print axioms Sas.Props.C92_label_refuted
#print axioms Sas.Props.C92_date_refuted
#print axioms Sas.Props.C93_asked
#print axioms Sas.Props.C93_throws
#print axioms Sas.Props.C93_either
#print axioms Sas.Props.C93_fails
#print axioms Sas.Props.C93_function
#print axioms Sas.Props.C94_open
#print axioms Sas.Props.C94_read_partial
#print axioms Sas.Props.C94_arrives
#print axioms Sas.Props.C94_final
#print axioms Sas.Props.C94_retry_refuted
#print axioms Sas.Props.C95_open
#print axioms Sas.Props.C95_alone
#print axioms Sas.Props.C95_empty
#print axioms Sas.Props.C95_shared_refuted
#print axioms Sas.Props.C95_taken_refuted
#print axioms Sas.Props.C96_creator
#print axioms Sas.Props.C96_rdc
#print axioms Sas.Props.C97_values
#print axioms Sas.Props.C97_formatters
#print axioms Sas.Props.C97_outlives
#print axioms Sas.Props.C97_equal
#print axioms Sas.Props.C97_moved
#print axioms Sas.Props.C98_numbers
#print axioms Sas.Props.C98_columns
#print axioms Sas.Props.C98_buffers
#print axioms Sas.Props.C98_reader
#print axioms Sas.Props.C99_damage
#print axioms Sas.Props.C99_bytes
#print axioms Sas.Props.C99_cell
#print axioms Sas.Props.C99_one_row
