{
 "e_f6": [
  "C157"
 ],
 "d_c1": [
  "C150"
 ],
 "c_p20": [
  "C85"
 ],
 "c_p48": [
  "C85"
 ],
 "c_p55": [
  "C85"
 ],
 "c_p60": [
  "C50"
 ],
 "c_p46": [
  "C115"
 ],
 "c_shc": [
  "C73"
 ],
 "c_shl": [
  "C73"
 ],
 "c_swl": [
  "C72"
 ],
 "c_sw_g": [
  "C69"
 ],
 "c_sw_j": [
  "C108",
  "C71"
 ],
 "c_sw_m": [
  "C72"
 ],
 "c_drt": [
  "C101"
 ],
 "c_drv": [
  "C85"
 ],
 "c_dr_c": [
  "C99"
 ],
 "c_fla": [
  "C146"
 ],
 "c_flb": [
  "C104"
 ],
 "c_flc": [
  "C104"
 ],
 "c_fle": [
  "C104"
 ],
 "c_fld": [
  "C104",
  "C146"
 ],
 "c_flj": [
  "C39"
 ],
 "c_mta": [
  "C01"
 ],
 "c_mtb": [
  "C01"
 ],
 "c_mth": [
  "C01"
 ],
 "c_mti": [
  "C01"
 ],
 "c_mtj": [
  "C01"
 ],
 "c_mte": [
  "C05",
  "C06"
 ],
 "c_mnb": [
  "C76"
 ],
 "c_mni": [
  "C76",
  "C107"
 ],
 "c_mai": [
  "C87"
 ],
 "c_mak": [
  "C56"
 ],
 "c_mal": [
  "C56"
 ],
 "c_map": [
  "C56"
 ],
 "c_maq": [
  "C58",
  "C87"
 ],
 "i_swm": [
  "C68"
 ]
}