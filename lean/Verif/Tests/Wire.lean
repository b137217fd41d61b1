import Verif.Tests.Support

/-! # The tests of the reader and the writer -/

namespace Ssh.Tests
open Ssh.Concrete

-- tests/reader.rs: rfc4251_mpint_test_vector_one
#guard holds (Reader.readPositiveMpint (Reader.new [0, 0, 0, 0])).1 fun x => x.length == 0

-- tests/reader.rs: rfc4251_mpint_test_vector_two
#guard (Reader.readPositiveMpint (Reader.new [0, 0, 0, 8, 9, 163, 120, 249, 178, 227, 50, 167])).1 == .ok [9, 163, 120, 249, 178, 227, 50, 167]

-- tests/reader.rs: rfc4251_mpint_test_vector_three
#guard (Reader.readPositiveMpint (Reader.new [0, 0, 0, 2, 0, 128])).1 == .ok [128]

-- tests/reader.rs: rfc4251_mpint_test_vector_four
#guard (Reader.readPositiveMpint (Reader.new [0, 0, 0, 2, 237, 204])).1 == .err .invalidFormat

-- tests/reader.rs: rfc4251_mpint_test_vector_five
#guard (Reader.readPositiveMpint (Reader.new [0, 0, 0, 5, 255, 33, 82, 65, 17])).1 == .err .invalidFormat

-- tests/reader.rs: malicious_mpint_wrong_zero
#guard (Reader.readPositiveMpint (Reader.new [0, 0, 0, 1, 0])).1 == .err .invalidFormat

-- tests/reader.rs: malicious_mpint_unneeded_zero
#guard (Reader.readPositiveMpint (Reader.new [0, 0, 0, 2, 0, 1])).1 == .err .invalidFormat

-- tests/reader.rs: malicious_mpint_too_many_zeros
#guard (Reader.readPositiveMpint (Reader.new [0, 0, 0, 4, 0, 0, 0, 255])).1 == .err .invalidFormat

-- tests/reader.rs: extra_good_check
#guard (Reader.readPositiveMpint (Reader.new [0, 0, 0, 1, 127])).1 == .ok [127]

-- tests/reader.rs: extra_good_check_two
#guard (Reader.readPositiveMpint (Reader.new [0, 0, 0, 2, 0, 128])).1 == .ok [128]

-- tests/reader.rs: read_raw_bytes
#guard (Reader.readRawBytes 10 (Reader.new [255, 33, 82, 65, 17, 255, 33, 82, 65, 17, 255, 33, 82, 65, 17, 255, 33, 82, 65, 17])).1 == .ok [255, 33, 82, 65, 17, 255, 33, 82, 65, 17]

-- tests/reader.rs: read_raw_too_many
#guard isErr (Reader.readRawBytes 40 (Reader.new [255, 33, 82, 65, 17, 255, 33, 82, 65, 17, 255, 33, 82, 65, 17, 255, 33, 82, 65, 17])).1

-- tests/reader.rs: read_raw_wrap
#guard isOk (Reader.readRawBytes 4 (Reader.new [255, 33, 82, 65, 17, 255, 33, 82, 65, 17, 255, 33, 82, 65, 17, 255, 33, 82, 65, 17])).1 && isErr (Reader.readRawBytes 61 (Reader.readRawBytes 4 (Reader.new [255, 33, 82, 65, 17, 255, 33, 82, 65, 17, 255, 33, 82, 65, 17, 255, 33, 82, 65, 17])).2).1

-- tests/writer.rs: bad_data_one
#guard (Writer.new.writeMpint [0, 0, 3]).inner == [0, 0, 0, 1, 3]

-- tests/writer.rs: difficult_data_one
#guard (Writer.new.writeMpint [255]).inner == [0, 0, 0, 2, 0, 255]

-- tests/writer.rs: edge_case_with_127
#guard (Writer.new.writeMpint [127]).inner == [0, 0, 0, 1, 127]

-- tests/writer.rs: edge_case_with_128
#guard (Writer.new.writeMpint [128]).inner == [0, 0, 0, 2, 0, 128]

-- tests/writer.rs: filled_u32_mpint
#guard (Writer.new.writeMpint [255, 255, 255, 255]).inner == [0, 0, 0, 5, 0, 255, 255, 255, 255]

-- tests/writer.rs: all_zeroes
#guard (Writer.new.writeMpint [0, 0, 0, 0, 0, 0, 0, 0, 0, 0]).inner == [0, 0, 0, 0]

-- tests/writer.rs: one_zero
#guard (Writer.new.writeMpint [0]).inner == [0, 0, 0, 0]

-- tests/writer.rs: empty
#guard (Writer.new.writeMpint []).inner == [0, 0, 0, 0]

end Ssh.Tests
