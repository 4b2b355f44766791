{
 "mi7": [
  "C100"
 ],
 "fs3": [
  "C103"
 ],
 "fs9": [
  "C103"
 ],
 "fs10": [
  "C103"
 ],
 "fs11": [
  "C105"
 ],
 "bw1": [
  "C94"
 ],
 "bw6": [
  "C94"
 ],
 "bw7": [
  "C94"
 ],
 "bw8": [
  "C94"
 ],
 "bw16": [
  "C95"
 ],
 "bw19": [
  "C93"
 ],
 "bw21": [
  "C93"
 ],
 "bw23": [
  "C93"
 ],
 "sa1": [
  "C97"
 ],
 "sa3": [
  "C97"
 ],
 "sa4": [
  "C97"
 ],
 "sa9": [
  "C98"
 ],
 "sa10": [
  "C98"
 ],
 "sa12": [
  "C98"
 ],
 "sa13": [
  "C98"
 ],
 "sa14": [
  "C98"
 ],
 "sa15": [
  "C98"
 ],
 "sa23": [
  "C99"
 ],
 "sa24": [
  "C98"
 ],
 "t0": [
  "C31"
 ],
 "dr5": [
  "C101"
 ],
 "dr6": [
  "C102"
 ],
 "dr7": [
  "C102"
 ],
 "dr11": [
  "C101"
 ],
 "dr12": [
  "C101"
 ],
 "dr21": [
  "C102"
 ],
 "dr22": [
  "C102",
  "C105"
 ],
 "dr23": [
  "C102",
  "C105"
 ],
 "dr26": [
  "C101"
 ],
 "dr27": [
  "C101"
 ],
 "dr28": [
  "C101"
 ],
 "pi1": [
  "C105"
 ],
 "pi2": [
  "C105"
 ],
 "pi5": [
  "C105"
 ],
 "pa20": [
  "C85"
 ],
 "pa22": [
  "C85"
 ],
 "pa27": [
  "C85"
 ],
 "pa28": [
  "C85"
 ],
 "fs12": [
  "C107"
 ],
 "ma18": [
  "OPE.Main.C51_exit_codes",
  "OPE.Main.C52_threshold_rows"
 ],
 "ma2": [
  "OPE.Main.C51_exit_codes"
 ],
 "sw1": [
  "C108"
 ],
 "sw4": [
  "C108"
 ],
 "sw22": [
  "C108"
 ],
 "sw21": [
  "OPE.CO2.C69_search_error"
 ],
 "sw24": [
  "OPE.CO2.C67_pressure_derivative"
 ],
 "ma21": [
  "OPE.Main.C58_compared_columns"
 ],
 "dr20": [
  "OPE.Parse.C48_defaults"
 ],
 "fs7": [
  "C40_out_of_range",
  "C124"
 ],
 "fs8": [
  "C40_given_gases"
 ],
 "mi1": [
  "C107"
 ],
 "b_pp25": [
  "C146"
 ],
 "c_p1": [
  "C152"
 ],
 "c_p2": [
  "C152"
 ],
 "c_p5": [
  "C152"
 ],
 "c_p6": [
  "C152"
 ],
 "c_p30": [
  "C152"
 ],
 "c_p34": [
  "C152"
 ],
 "d_o5": [
  "C154"
 ],
 "c_p35": [
  "C152"
 ],
 "c_p36": [
  "C152"
 ],
 "c_drp": [
  "C101"
 ],
 "d_o11": [
  "C155"
 ],
 "c_g1": [
  "C49"
 ],
 "c_g2": [
  "C49"
 ],
 "j_p46": [
  "C152"
 ],
 "i_p46": [
  "C152"
 ],
 "k_s1": [
  "C73"
 ]
}